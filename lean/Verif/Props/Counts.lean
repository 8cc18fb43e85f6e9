import Verif.Props.Input

set_option autoImplicit false

/-!
# Property C90: counts in the input file
-/

namespace QED

open Ini Num FileParser
open _root_.QED.Units

/-- The value that `n` is read as, if this is what the file says. -/
theorem particles_number {c : Config} (h : c.WF) {inp : Input ℝ}
    (hp : parse (Reader.ofFile (fileOf c.lines)) = .ok inp) {i : Nat} (hi : i < inp.particles.length)
    {v : List Char} (hv : c.Says (numbered "Particle" (i + 1)) "number_particles".toList v) :
    inp.particles[i].number = toU32 ((strtol v).getD 1) := by
  obtain ⟨-, u, g, f, ps, hs, h2, -, h4, -, rfl⟩ := parse_eq_ok.mp hp
  obtain ⟨-, -, k3⟩ := readNumbered_ok h4
  have := k3 i hi
  unfold readParticle at this
  simp only [bind_eq_ok] at this
  obtain ⟨_, -, _, -, h5⟩ := this
  have h6 := congrArg ParticleParams.number (Res.ok.inj h5)
  rw [← h6]
  dsimp only
  unfold Reader.getInteger
  rw [(get_of_says h hv []).1]

/-- What holds of C90: a plain decimal number below `2 ^ 32` is taken at its value. -/
theorem C90_plain_partial (c : Config) (h : c.WF) (inp : Input ℝ)
    (hp : parse (Reader.ofFile (fileOf c.lines)) = .ok inp) (i : Nat) (hi : i < inp.particles.length)
    (n : Nat) (hn : n < 2 ^ 32)
    (hv : c.Says (numbered "Particle" (i + 1)) "number_particles".toList (Nat.toDigits 10 n)) :
    inp.particles[i].number = n :=
  (((C67_sources_partial c h inp hp).2.2 i hi).number).2 n hn hv

/-- C90 is false of negative numbers: `-n` particles are taken as `2 ^ 32 - n`. -/
theorem C90_negative_refuted (c : Config) (h : c.WF) (inp : Input ℝ)
    (hp : parse (Reader.ofFile (fileOf c.lines)) = .ok inp) (i : Nat) (hi : i < inp.particles.length)
    (n : Nat) (h0 : 0 < n) (hn : n < 2 ^ 32)
    (hv : c.Says (numbered "Particle" (i + 1)) "number_particles".toList ('-' :: Nat.toDigits 10 n)) :
    inp.particles[i].number = 2 ^ 32 - n := by
  rw [particles_number h hp hi hv]
  have hs : strtol ('-' :: Nat.toDigits 10 n) = some (-(n : Int)) := by
    obtain ⟨d, t, h1, h2, h3⟩ := toDigits_head n h0
    have hall : (Nat.toDigits 10 n).takeWhile (isDigit 10) = Nat.toDigits 10 n := by
      rw [List.takeWhile_eq_self_iff]
      intro c hc
      obtain ⟨d, hd, rfl⟩ := toDigits_all n c hc
      exact isDigit_digitChar hd
    have hval := ofDigits_toDigits n
    rw [h3] at hall hval ⊢
    have hne : (d.digitChar :: t).takeWhile (isDigit 10) ≠ [] := by
      simp [isDigit_digitChar h2]
    have : strtol ('-' :: d.digitChar :: t) =
        (if (d.digitChar :: t).takeWhile (isDigit 10) = [] then none
        else some (max (-(2 ^ 63)) (min (2 ^ 63 - 1)
          (-((ofDigits 10 ((d.digitChar :: t).takeWhile (isDigit 10)) : Nat) : Int))))) := by
      interval_cases d <;> rfl
    rw [this, if_neg hne, hall, hval]
    congr 1
    have : (n : Int) < 2 ^ 32 := by exact_mod_cast hn
    omega
  rw [hs]
  unfold toU32
  simp only [Option.getD_some]
  omega

/-- A digit below eight. -/
def octDigit (d : Fin 8) : Char := Char.ofNat (48 + d.val)

/-- C90 is false of numbers with a leading zero: they are read in base eight. -/
theorem C90_leading_zero_refuted (c : Config) (h : c.WF) (inp : Input ℝ)
    (hp : parse (Reader.ofFile (fileOf c.lines)) = .ok inp) (i : Nat) (hi : i < inp.particles.length)
    (ds : List (Fin 8)) (hn : Nat.ofDigits 8 (ds.reverse.map Fin.val) < 2 ^ 32)
    (hv : c.Says (numbered "Particle" (i + 1)) "number_particles".toList ('0' :: ds.map octDigit)) :
    inp.particles[i].number = Nat.ofDigits 8 (ds.reverse.map Fin.val) := by
  rw [particles_number h hp hi hv]
  have hdig : ∀ d : Fin 8, isDigit 8 (octDigit d) = true ∧ digitVal (octDigit d) = some d.val ∧
      octDigit d ≠ 'x' ∧ octDigit d ≠ 'X' := by decide
  have hall : ('0' :: ds.map octDigit).takeWhile (isDigit 8) = '0' :: ds.map octDigit := by
    rw [List.takeWhile_eq_self_iff]
    intro c hc
    rcases List.mem_cons.1 hc with rfl | hc
    · decide
    · obtain ⟨d, -, rfl⟩ := List.mem_map.1 hc
      exact (hdig d).1
  have hval : ofDigits 8 ('0' :: ds.map octDigit) = Nat.ofDigits 8 (ds.reverse.map Fin.val) := by
    have key : ∀ (ds : List (Fin 8)) (n : Nat),
        (ds.map octDigit).foldl (fun n c => n * 8 + (digitVal c).getD 0) n =
          n * 8 ^ ds.length + Nat.ofDigits 8 (ds.reverse.map Fin.val) := by
      intro ds
      induction ds with
      | nil => intro n; simp
      | cons d ds ih =>
        intro n
        rw [List.map_cons, List.foldl_cons, ih, (hdig d).2.1]
        simp only [List.reverse_cons, List.map_append, List.map_cons, List.map_nil,
          Nat.ofDigits_append, List.length_cons, List.length_map, List.length_reverse,
          Nat.ofDigits_singleton, Option.getD_some]
        ring
    have := key ds 0
    simpa [ofDigits, digitVal] using this
  have hs : strtol ('0' :: ds.map octDigit) =
      some (max (-(2 ^ 63)) (min (2 ^ 63 - 1) ((ofDigits 8 ('0' :: ds.map octDigit) : Nat) : Int))) := by
    have hb : ∀ t : List Char, strtol ('0' :: t) = (let (base, digits) :=
        (match '0' :: t with
        | '0' :: x :: d :: rest =>
          if (x = 'x' ∨ x = 'X') ∧ isDigit 16 d then (16, (d :: rest).takeWhile (isDigit 16))
          else (8, ('0' :: t).takeWhile (isDigit 8))
        | '0' :: _ => (8, ('0' :: t).takeWhile (isDigit 8))
        | _ => (10, ('0' :: t).takeWhile (isDigit 10)))
        if digits = [] then none
        else some (max (-(2 ^ 63)) (min (2 ^ 63 - 1) ((ofDigits base digits : Nat) : Int)))) := fun t => rfl
    rw [hb]
    match ds, hall with
    | [], hall => decide
    | [d], hall =>
      simp only [List.map_cons, List.map_nil] at hall ⊢
      rw [hall]
      simp
    | d :: e :: ds, hall =>
      simp only [List.map_cons] at hall ⊢
      have hx : ¬((octDigit d = 'x' ∨ octDigit d = 'X') ∧ isDigit 16 (octDigit e) = true) := by
        rintro ⟨h | h, -⟩
        · exact (hdig d).2.2.1 h
        · exact (hdig d).2.2.2 h
      simp only [if_neg hx, hall, reduceCtorEq, if_false]
  rw [hs, hval]
  unfold toU32
  simp only [Option.getD_some]
  have : ((Nat.ofDigits 8 (ds.reverse.map Fin.val) : Nat) : Int) < 2 ^ 32 := by exact_mod_cast hn
  omega

/-- C90 is false of numbers with a point, an exponent or anything else behind the digits: only the digits in front of it
count, so `1e5` is 1 and `12abc` is 12. -/
theorem C90_exponent_refuted (c : Config) (h : c.WF) (inp : Input ℝ)
    (hp : parse (Reader.ofFile (fileOf c.lines)) = .ok inp) (i : Nat) (hi : i < inp.particles.length)
    (n : Nat) (h0 : 0 < n) (hn : n < 2 ^ 32) (mark : Char) (rest : List Char)
    (hmark : mark.isDigit = false)
    (hv : c.Says (numbered "Particle" (i + 1)) "number_particles".toList
      (Nat.toDigits 10 n ++ mark :: rest)) :
    inp.particles[i].number = n := by
  rw [particles_number h hp hi hv]
  have hs : strtol (Nat.toDigits 10 n ++ mark :: rest) = some (n : Int) := by
    obtain ⟨d, t, h1, h2, h3⟩ := toDigits_head n h0
    have hall : (Nat.toDigits 10 n ++ mark :: rest).takeWhile (isDigit 10) = Nat.toDigits 10 n := by
      rw [List.takeWhile_append_of_pos]
      · have : isDigit 10 mark = false := by
          unfold isDigit digitVal
          rw [if_neg (fun hc => by
            have : mark.isDigit = true := by
              simp only [Char.isDigit, Bool.and_eq_true, decide_eq_true_eq]
              exact hc
            simp [this] at hmark)]
          split_ifs with h2 h3
          · have : 87 + 10 ≤ mark.toNat := h2.1
            simp; omega
          · have : 55 + 10 ≤ mark.toNat := h3.1
            simp; omega
          · rfl
        simp [this]
      · intro c hc
        obtain ⟨d, hd, rfl⟩ := toDigits_all n c hc
        exact isDigit_digitChar hd
    have hval := ofDigits_toDigits n
    rw [h3, List.cons_append] at hall
    rw [h3] at hval
    rw [h3, List.cons_append, strtol_decimal d _ h1 h2, hall, hval]
    congr 1
    have : (n : Int) < 2 ^ 32 := by exact_mod_cast hn
    omega
  rw [hs]
  unfold toU32
  simp only [Option.getD_some]
  omega

/-- A file with a source of `v` particles. -/
def countConfig (v : String) : Config :=
  inputConfig "General" [("Particle1".toList, [("number_particles".toList, v.toList)])]

theorem countConfig_ok (v : String) (hw : (countConfig v).WF) : ∃ inp : Input ℝ,
    parse (Reader.ofFile (fileOf (countConfig v).lines)) = .ok inp ∧ 0 < inp.particles.length := by
  obtain ⟨inp, hi⟩ := inputConfig_ok [("Particle1".toList, [("number_particles".toList, v.toList)])] hw
    (by simp [silentB, inputConfig]) (by simp [silentB, inputConfig])
    (fun n => by simp [silentB, inputConfig, numbered])
    (fun n => by simp [silentB, inputConfig, numbered])
  refine ⟨inp, hi, ?_⟩
  by_contra hc
  have h0 : inp.particles.length = 0 := by omega
  have := (C67_sources_partial _ hw inp hi).2.1
  rw [h0] at this
  have n1 : numbered "Particle" (0 + 1) = "Particle1".toList := by decide
  rw [n1] at this
  exact this ⟨[("number_particles".toList, v.toList)], by simp [countConfig, inputConfig], by simp⟩

theorem countConfig_says (v : String) :
    (countConfig v).Says (numbered "Particle" (0 + 1)) "number_particles".toList v.toList := by
  have n1 : numbered "Particle" (0 + 1) = "Particle1".toList := by decide
  rw [n1]
  exact ⟨("Particle1".toList, [("number_particles".toList, v.toList)]), by simp [countConfig, inputConfig],
    _, List.mem_singleton_self _, rfl, rfl, rfl⟩

/-- Files that ask for `-1`, `010` and `1e5` particles run with 4294967295, 8 and 1. -/
example : (∃ inp : Input ℝ, parse (Reader.ofFile (fileOf (countConfig "-1").lines)) = .ok inp ∧
      ∃ h : 0 < inp.particles.length, inp.particles[0].number = 4294967295) ∧
    (∃ inp : Input ℝ, parse (Reader.ofFile (fileOf (countConfig "010").lines)) = .ok inp ∧
      ∃ h : 0 < inp.particles.length, inp.particles[0].number = 8) ∧
    (∃ inp : Input ℝ, parse (Reader.ofFile (fileOf (countConfig "1e5").lines)) = .ok inp ∧
      ∃ h : 0 < inp.particles.length, inp.particles[0].number = 1) := by
  have w1 : (countConfig "-1").WF := Config.wfB_spec (by decide)
  have w2 : (countConfig "010").WF := Config.wfB_spec (by decide)
  have w3 : (countConfig "1e5").WF := Config.wfB_spec (by decide)
  obtain ⟨i1, p1, l1⟩ := countConfig_ok _ w1
  obtain ⟨i2, p2, l2⟩ := countConfig_ok _ w2
  obtain ⟨i3, p3, l3⟩ := countConfig_ok _ w3
  exact ⟨⟨i1, p1, l1, C90_negative_refuted _ w1 i1 p1 0 l1 1 (by omega) (by omega) (countConfig_says "-1")⟩,
    ⟨i2, p2, l2, C90_leading_zero_refuted _ w2 i2 p2 0 l2 [1, 0] (by decide) (countConfig_says "010")⟩,
    ⟨i3, p3, l3, C90_exponent_refuted _ w3 i3 p3 0 l3 1 (by omega) (by omega) 'e' ['5'] (by decide)
      (countConfig_says "1e5")⟩⟩

end QED
