import Verif.Lemmas.Numeral
import Verif.Props.Ini
import Verif.Base.Dbl

set_option autoImplicit false

/-!
# Reading three-vectors (C64, C65)

`Numeral` (in `Spec/Numeral.lean`) says what a decimal numeral is, how it is written (`text`) and what
number it stands for (`value`).
-/

namespace QED

open Ini Num

/-! ## C65 -/

/-- What a text with these numerals after filtering is read as. -/
theorem threeVectorOf_numerals {D : Type} [Dbl D] (text : List Char) (ns : List Numeral)
    (hw : ∀ n ∈ ns, n.WF) (h : text.filter vecChar = Numeral.joined [' '] ns) :
    Reader.threeVectorOf (D := D) text =
      match ns.map Numeral.value with
      | [] => .ok ⟨Dbl.lit 0, Dbl.lit 0, Dbl.lit 0⟩
      | [a] => .ok ⟨Dbl.lit a, Dbl.lit 0, Dbl.lit 0⟩
      | [a, b] => .ok ⟨Dbl.lit a, Dbl.lit b, Dbl.lit 0⟩
      | [a, b, c] => .ok ⟨Dbl.lit a, Dbl.lit b, Dbl.lit c⟩
      | _ => .exit 1 := by
  unfold Reader.threeVectorOf
  dsimp only
  rw [h, (Numeral.extractAll_joined ns _ hw le_rfl).1]
  rfl

/-- C65: three numerals separated by single spaces, with or without square brackets around them, are
read as exactly those three numbers. -/
theorem C65_three (r : Reader) (sect name : List Char) (d : V3 ℝ) (a b c : Numeral) (ha : a.WF)
    (hb : b.WF) (hc : c.WF)
    (h : r.get sect name [] = a.text ++ ' ' :: b.text ++ ' ' :: c.text ∨
      r.get sect name [] = '[' :: a.text ++ ' ' :: b.text ++ ' ' :: c.text ++ [']']) :
    r.getThreeVector sect name d = .ok ⟨(a.value : ℝ), (b.value : ℝ), (c.value : ℝ)⟩ := by
  unfold Reader.getThreeVector
  rw [threeVectorOf_numerals (D := ℝ) _ [a, b, c] (by simp [ha, hb, hc])]
  · simp
  · have h1 : vecChar ' ' = true := by decide
    have h2 : vecChar '[' = false := by decide
    have h3 : vecChar ']' = false := by decide
    rcases h with h | h
    · rw [h]
      simp [Numeral.joined, List.filter_append, Numeral.text_kept, h1]
    · rw [h]
      simp [Numeral.joined, List.filter_append, Numeral.text_kept, h1, h2, h3]

/-- C65: any number of numerals separated by single spaces: up to three are read and completed with
zeros, more than three end the program. -/
theorem C65_any_number (r : Reader) (sect name : List Char) (d : V3 ℝ) (ns : List Numeral)
    (hw : ∀ n ∈ ns, n.WF) (h : r.get sect name [] = Numeral.joined [' '] ns) :
    (ns.length ≤ 3 → r.getThreeVector sect name d =
      .ok ⟨(((ns.map Numeral.value)[0]?.getD 0 : ℚ) : ℝ), (((ns.map Numeral.value)[1]?.getD 0 : ℚ) : ℝ),
        (((ns.map Numeral.value)[2]?.getD 0 : ℚ) : ℝ)⟩) ∧
    (3 < ns.length → r.getThreeVector sect name d = .exit 1) := by
  have H : r.getThreeVector sect name d = _ := threeVectorOf_numerals (D := ℝ) _ ns hw (by
    rw [h, Numeral.joined_kept]; rfl)
  rw [H]
  rcases ns with _ | ⟨n1, _ | ⟨n2, _ | ⟨n3, _ | ⟨n4, ns⟩⟩⟩⟩
  · simp
  · simp
  · simp
  · simp
  · simp

/-- C65 from the file: a vector written as an entry of a configuration is what is read. -/
theorem C65_from_file (cfg : Config) (hcfg : cfg.WF)
    (s : List Char × List (List Char × List Char)) (hs : s ∈ cfg) (e : List Char × List Char)
    (he : e ∈ s.2) (d : V3 ℝ) (a b c : Numeral) (ha : a.WF) (hb : b.WF) (hc : c.WF)
    (hv : e.2 = a.text ++ ' ' :: b.text ++ ' ' :: c.text) :
    (Reader.ofFile (fileOf cfg.lines)).getThreeVector s.1 e.1 d =
      .ok ⟨(a.value : ℝ), (b.value : ℝ), (c.value : ℝ)⟩ := by
  apply C65_three _ _ _ _ a b c ha hb hc
  left
  rw [← hv]
  exact ((C59_round_trip cfg hcfg).2.1 s hs e he []).1

/-- The numeral `-1.5e-3`. -/
def sampleNumeral : Numeral := ⟨true, [1], some [5], some (true, [3])⟩

example : sampleNumeral.WF := ⟨Or.inl (by decide), by intro e he; cases he; decide⟩
example : sampleNumeral.text = "-1.5e-3".toList := by decide
example : sampleNumeral.value = -15 / 10000 := by
  norm_num [sampleNumeral, Numeral.value, Numeral.nat, Numeral.expVal]

/-- The hypotheses of `C65_from_file` can be met. -/
example : ∃ (cfg : Config), cfg.WF ∧ ∃ s ∈ cfg, ∃ e ∈ s.2, e.2 =
    sampleNumeral.text ++ ' ' :: sampleNumeral.text ++ ' ' :: sampleNumeral.text :=
  ⟨[("Field".toList, [("e_field".toList, "-1.5e-3 -1.5e-3 -1.5e-3".toList)])],
    Config.wfB_spec (by decide), _, List.mem_singleton_self _, _, List.mem_singleton_self _,
    by decide⟩

/-! ## C64 -/

/-- C64, the part that holds: the form `[a, b, c]`, with spaces after the commas, is read as the
vector. Missing: the form without spaces and the default, see `C64_refuted` and
`C64_default_ignored`. -/
theorem C64_spaced_partial (r : Reader) (sect name : List Char) (d : V3 ℝ) (a b c : Numeral)
    (ha : a.WF) (hb : b.WF) (hc : c.WF)
    (h : r.get sect name [] =
      '[' :: a.text ++ ',' :: ' ' :: b.text ++ ',' :: ' ' :: c.text ++ [']']) :
    r.getThreeVector sect name d = .ok ⟨(a.value : ℝ), (b.value : ℝ), (c.value : ℝ)⟩ := by
  unfold Reader.getThreeVector
  rw [threeVectorOf_numerals (D := ℝ) _ [a, b, c] (by simp [ha, hb, hc])]
  · simp
  · have h1 : vecChar ' ' = true := by decide
    have h2 : vecChar '[' = false := by decide
    have h3 : vecChar ']' = false := by decide
    have h4 : vecChar ',' = false := by decide
    rw [h]
    simp [Numeral.joined, List.filter_append, Numeral.text_kept, h1, h2, h3, h4]

/-- C64 is false: for any natural numbers, `[a,b,c]` is read as the one number whose digits are those
of `a`, `b` and `c` in a row. -/
theorem C64_refuted (r : Reader) (sect name : List Char) (d : V3 ℝ) (a b c : List (Fin 10))
    (hne : a ≠ [])
    (h : r.get sect name [] = '[' :: a.map Numeral.digit ++ ',' :: b.map Numeral.digit ++
      ',' :: c.map Numeral.digit ++ [']']) :
    r.getThreeVector sect name d = .ok ⟨(Numeral.nat (a ++ b ++ c) : ℝ), 0, 0⟩ := by
  unfold Reader.getThreeVector
  rw [threeVectorOf_numerals (D := ℝ) _ [⟨false, a ++ b ++ c, none, none⟩]]
  · simp [Numeral.value, Numeral.expVal, Numeral.nat]
  · intro n hn
    simp at hn
    subst hn
    refine ⟨Or.inl ?_, by intro e he; cases he⟩
    simp [hne]
  · have hd : ∀ (ds : List (Fin 10)), (ds.map Numeral.digit).filter vecChar =
        ds.map Numeral.digit := by
      intro ds
      have := Numeral.text_kept ⟨false, ds, none, none⟩
      simpa [Numeral.text, Numeral.signText, Numeral.fracText, Numeral.expText] using this
    have h2 : vecChar '[' = false := by decide
    have h3 : vecChar ']' = false := by decide
    have h4 : vecChar ',' = false := by decide
    rw [h]
    simp [Numeral.joined, List.filter_append, hd, h2, h3, h4, Numeral.text,
      Numeral.signText, Numeral.fracText, Numeral.expText]

/-- C64 is false, with numbers: `[1,2,3]` is read as (123, 0, 0). -/
example (r : Reader) (sect name : List Char) (d : V3 ℝ)
    (h : r.get sect name [] = "[1,2,3]".toList) :
    r.getThreeVector sect name d = .ok ⟨123, 0, 0⟩ := by
  have := C64_refuted r sect name d [1] [2] [3] (by simp) (by rw [h]; decide)
  rw [this]
  norm_num [Numeral.nat, Nat.ofDigits]

/-- C64 is false of capital exponents too, even with spaces: in `[aEk, b, c]` the exponent's digits are read
as further digits of the first number. -/
theorem C64_upper_refuted (r : Reader) (sect name : List Char) (d : V3 ℝ) (a k b c : List (Fin 10))
    (ha : a ≠ []) (hb : b ≠ []) (hc : c ≠ [])
    (h : r.get sect name [] = '[' :: a.map Numeral.digit ++ 'E' :: k.map Numeral.digit ++
      ',' :: ' ' :: b.map Numeral.digit ++ ',' :: ' ' :: c.map Numeral.digit ++ [']']) :
    r.getThreeVector sect name d =
      .ok ⟨(Numeral.nat (a ++ k) : ℝ), (Numeral.nat b : ℝ), (Numeral.nat c : ℝ)⟩ := by
  unfold Reader.getThreeVector
  rw [threeVectorOf_numerals (D := ℝ) _
    [⟨false, a ++ k, none, none⟩, ⟨false, b, none, none⟩, ⟨false, c, none, none⟩]]
  · simp [Numeral.value, Numeral.expVal, Numeral.nat]
  · intro n hn
    simp at hn
    rcases hn with rfl | rfl | rfl <;> refine ⟨Or.inl ?_, by intro e he; cases he⟩ <;>
      simp [ha, hb, hc]
  · have hd : ∀ (ds : List (Fin 10)), (ds.map Numeral.digit).filter vecChar =
        ds.map Numeral.digit := by
      intro ds
      have := Numeral.text_kept ⟨false, ds, none, none⟩
      simpa [Numeral.text, Numeral.signText, Numeral.fracText, Numeral.expText] using this
    have h1 : vecChar ' ' = true := by decide
    have h2 : vecChar '[' = false := by decide
    have h3 : vecChar ']' = false := by decide
    have h4 : vecChar ',' = false := by decide
    have h5 : vecChar 'E' = false := by decide
    rw [h]
    simp [Numeral.joined, List.filter_append, hd, h1, h2, h3, h4, h5, Numeral.text,
      Numeral.signText, Numeral.fracText, Numeral.expText]

/-- With numbers: `[1E3, 0, 0]` is read as (13, 0, 0). -/
example (r : Reader) (sect name : List Char) (d : V3 ℝ)
    (h : r.get sect name [] = "[1E3, 0, 0]".toList) :
    r.getThreeVector sect name d = .ok ⟨13, 0, 0⟩ := by
  have := C64_upper_refuted r sect name d [1] [3] [0] [0] (by simp) (by simp) (by simp)
    (by rw [h]; decide)
  rw [this]
  norm_num [Numeral.nat, Nat.ofDigits]

/-- C64 is false of missing values too: whatever the default, the result is the zero vector. -/
theorem C64_default_ignored (r : Reader) (sect name : List Char) (d : V3 ℝ)
    (h : r.hasValue sect name = false) : r.getThreeVector sect name d = .ok ⟨0, 0, 0⟩ := by
  have hg : r.get sect name [] = [] := by
    unfold Reader.hasValue at h
    unfold Reader.get
    cases hv : r.values (makeKey sect name) with
    | none => rfl
    | some v => rw [hv] at h; simp at h
  unfold Reader.getThreeVector
  rw [hg, threeVectorOf_numerals (D := ℝ) [] [] (by simp) rfl]
  simp

end QED
