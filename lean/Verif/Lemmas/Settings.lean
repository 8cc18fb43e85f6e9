import Verif.Spec.Settings
import Verif.Lemmas.Input
import Verif.Model.Program

set_option autoImplicit false

/-! # What the settings depend on (for C150) -/

namespace QED
namespace Settings

open Ini FileParser Dbl _root_.QED.Units

variable {D : Type} [Dbl D]

theorem bool_same {v w : List Char} (h : Same .truth v w) :
    (if lower v ∈ ["true".toList, "yes".toList, "on".toList, "1".toList] then true
      else if lower v ∈ ["false".toList, "no".toList, "off".toList, "0".toList] then false else false) =
    (if lower w ∈ ["true".toList, "yes".toList, "on".toList, "1".toList] then true
      else if lower w ∈ ["false".toList, "no".toList, "off".toList, "0".toList] then false else false) := by
  have hy : ∀ v, lower v ∈ ["true".toList, "yes".toList, "on".toList, "1".toList] ↔ Yes v := by
    intro v
    have e1 : "true".toList.map Char.toLower = "true".toList := by decide
    have e2 : "yes".toList.map Char.toLower = "yes".toList := by decide
    have e3 : "on".toList.map Char.toLower = "on".toList := by decide
    have e4 : "1".toList.map Char.toLower = "1".toList := by decide
    simp only [Yes, SameName, e1, e2, e3, e4, lower, List.mem_cons, List.not_mem_nil, or_false]
  exact if_congr ((hy v).trans (Iff.trans h (hy w).symm)) rfl (by simp only [ite_self])

theorem wordy_head {v : List Char} (h : Wordy v) :
    Num.strtod v = none ∧ Num.strtol v = none := by
  obtain ⟨c, rest, rfl, hc, -⟩ := h
  have hsp : isSpace c = false := by
    by_contra hne
    simp only [isSpace, Bool.not_eq_false, Bool.or_eq_true, decide_eq_true_eq] at hne
    rcases hne with ((((rfl | rfl) | rfl) | rfl) | rfl) | rfl <;> revert hc <;> decide
  have hl : lskip (c :: rest) = c :: rest := by
    unfold lskip
    rw [List.dropWhile_cons_of_neg (by simp [hsp])]
  have hm : c ≠ '-' := by rintro rfl; revert hc; decide
  have hp : c ≠ '+' := by rintro rfl; revert hc; decide
  have hd : c ≠ '.' := by rintro rfl; revert hc; decide
  have h0 : c ≠ '0' := by rintro rfl; revert hc; decide
  have hs : Num.sign (c :: rest) = (false, c :: rest) := by
    unfold Num.sign
    split <;> simp_all
  have hdig : Num.isDigit 10 c = false := by
    unfold Num.isDigit Num.digitVal
    have h1 : ¬ ('0' ≤ c ∧ c ≤ '9') := by
      rintro ⟨a, b⟩
      simp only [Char.isAlpha, Char.isUpper, Char.isLower, Bool.or_eq_true, Bool.and_eq_true, decide_eq_true_eq] at hc
      have a' : '0'.val ≤ c.val := a
      have b' : c.val ≤ '9'.val := b
      simp only [UInt32.le_iff_toNat_le] at *
      have e1 : '0'.val.toNat = 48 := rfl
      have e2 : '9'.val.toNat = 57 := rfl
      have e3 : 'A'.val.toNat = 65 := rfl
      have e4 : 'a'.val.toNat = 97 := rfl
      omega
    rw [if_neg h1]
    split_ifs with h2 h3
    · have : 87 + 10 ≤ c.toNat := h2.1
      simp; omega
    · have : 55 + 10 ≤ c.toNat := h3.1
      simp; omega
    · rfl
  have ht : (c :: rest).takeWhile (Num.isDigit 10) = [] := by
    rw [List.takeWhile_cons_of_neg (by simp [hdig])]
  constructor
  · unfold Num.strtod
    rw [hl, hs]
    simp only [ht, List.length_nil, List.drop_zero]
    split
    · simp_all
    · simp
  · unfold Num.strtol
    rw [hl, hs]
    simp only
    split
    · simp_all
    · simp_all
    · simp [ht]

section
variable {r r' : Reader} {s : List Char}

theorem str_same {k : String} (h : Same .text (r.get s k.toList []) (r'.get s k.toList [])) (d : String) :
    str r s k d = str r' s k d := by
  have h : r.get s k.toList [] = r'.get s k.toList [] := h
  simp only [str, Reader.getString, h]

theorem real_same {k : String} {d : ℚ} (h : Same (.number d) (r.get s k.toList []) (r'.get s k.toList [])) :
    real r s k (lit d : D) = real r' s k (lit d) := by
  have h : (Num.strtod (r.get s k.toList [])).getD d = (Num.strtod (r'.get s k.toList [])).getD d := h
  have e : ∀ r : Reader, real r s k (lit d : D) = lit ((Num.strtod (r.get s k.toList [])).getD d) := by
    intro r
    simp only [real, Reader.getReal]
    cases Num.strtod (r.get s k.toList []) <;> rfl
  rw [e, e, h]

theorem vec_same {k : String} (h : Same .vector (r.get s k.toList []) (r'.get s k.toList [])) (d : V3 D) :
    vec r s k d = vec r' s k d := by
  have h : r.get s k.toList [] = r'.get s k.toList [] := h
  simp only [vec, Reader.getThreeVector, h]

theorem count_same {k : String} {d : Int} (h : Same (.count d) (r.get s k.toList []) (r'.get s k.toList [])) :
    r.getInteger s k.toList d = r'.getInteger s k.toList d := h

theorem truth_same {k : String} (h : Same .truth (r.get s k.toList []) (r'.get s k.toList [])) :
    r.getBoolean s k.toList false = r'.getBoolean s k.toList false := bool_same h

theorem name_same {k : String} (h : Same .text (r.get s k.toList []) (r'.get s k.toList [])) (d : List Char) :
    r.getString s k.toList d = r'.getString s k.toList d := by
  have h : r.get s k.toList [] = r'.get s k.toList [] := h
  simp only [Reader.getString, h]

end

variable {r r' : Reader}

theorem readNumbered_same {α : Type} {pre : String} {read read' : List Char → Res α}
    (hs : ∀ i, numbered pre i ∈ r.sections ↔ numbered pre i ∈ r'.sections)
    (hr : ∀ i, read (numbered pre i) = read' (numbered pre i)) :
    readNumbered r.sections pre read (r.sections.length + 1) 1 =
      readNumbered r'.sections pre read' (r'.sections.length + 1) 1 := by
  obtain ⟨n, a1, a2, a3⟩ := first_missing r.sections pre
  obtain ⟨m, b1, b2, b3⟩ := first_missing r'.sections pre
  have hnm : n = m := by
    rcases Nat.lt_trichotomy n m with h | h | h
    · exact absurd ((hs _).2 (b2 (n + 1) (by omega) (by omega))) a3
    · exact h
    · exact absurd ((hs _).1 (a2 (m + 1) (by omega) (by omega))) b3
  subst hnm
  rw [readNumbered_spec r.sections pre read n _ 1 (by omega) (fun j hj => a2 _ (by omega) (by omega))
      (by rwa [Nat.add_comm]),
    readNumbered_spec r'.sections pre read' n _ 1 (by omega) (fun j hj => b2 _ (by omega) (by omega))
      (by rwa [Nat.add_comm])]
  generalize List.range n = l
  induction l with
  | nil => rfl
  | cons j l ih => simp only [List.map_cons, List.mapM_cons, hr, ih]

theorem parse_same (hs : ∀ s, KnownSection s → (s ∈ r.sections ↔ s ∈ r'.sections))
    (hq : ∀ k ∈ ["time_step", "time_end", "units"],
      r.hasValue "General".toList k.toList = r'.hasValue "General".toList k.toList)
    (hv : ∀ s k t, Known s k t → Same t (r.get s k []) (r'.get s k [])) :
    parse (D := D) r = parse r' := by
  have g : ∀ {k t}, (k, t) ∈ general → Same t (r.get "General".toList k.toList []) (r'.get "General".toList k.toList []) :=
    fun h => hv _ _ _ (.general h)
  have f : ∀ {k t}, (k, t) ∈ field → Same t (r.get "Field".toList k.toList []) (r'.get "Field".toList k.toList []) :=
    fun h => hv _ _ _ (.field h)
  have p : ∀ {k t}, (k, t) ∈ physics → Same t (r.get "Physics".toList k.toList []) (r'.get "Physics".toList k.toList []) :=
    fun h => hv _ _ _ (.physics h)
  have a : ∀ i {k t}, (k, t) ∈ particle →
      Same t (r.get (numbered "Particle" i) k.toList []) (r'.get (numbered "Particle" i) k.toList []) :=
    fun i _ _ h => hv _ _ _ (.particle i h)
  have b : ∀ i {k t}, (k, t) ∈ histogram →
      Same t (r.get (numbered "Histogram" i) k.toList []) (r'.get (numbered "Histogram" i) k.toList []) :=
    fun i _ _ h => hv _ _ _ (.histogram i h)
  have e1 : checkVitals r = checkVitals r' := by
    unfold checkVitals
    simp only [hs _ .general, hq "time_step" (by simp), hq "time_end" (by simp), hq "units" (by simp)]
  have e2 : readGeneral (D := D) r = readGeneral r' := by
    unfold readGeneral
    simp only [str_same (g (k := "units") (by simp [general])), str_same (g (k := "file_name") (by simp [general])),
      real_same (D := D) (g (k := "time_step") (t := .number 0) (by simp [general])),
      real_same (D := D) (g (k := "time_end") (t := .number 0) (by simp [general])),
      truth_same (g (k := "tracking") (by simp [general]))]
  have e3 : ∀ u, readField (D := D) r u = readField r' u := by
    intro u
    unfold readField
    simp only [hs _ .field, str_same (f (k := "field_type") (by simp [field])),
      vec_same (D := D) (f (k := "e_field") (by simp [field])), vec_same (D := D) (f (k := "b_field") (by simp [field])),
      vec_same (D := D) (f (k := "direction") (by simp [field])), vec_same (D := D) (f (k := "start") (by simp [field])),
      vec_same (D := D) (f (k := "focus") (by simp [field])),
      real_same (D := D) (f (k := "e_max") (t := .number 0) (by simp [field])),
      real_same (D := D) (f (k := "wavelength") (t := .number 1) (by simp [field])),
      real_same (D := D) (f (k := "polerisation") (t := .number 0) (by simp [field])),
      real_same (D := D) (f (k := "duration") (t := .number 1) (by simp [field])),
      real_same (D := D) (f (k := "waist") (t := .number 1) (by simp [field]))]
  have e4 : ∀ u, readPhysics (D := D) r u = readPhysics r' u := by
    intro u
    unfold readPhysics
    simp only [str_same (p (k := "radiation_model") (by simp [physics])),
      real_same (D := D) (p (k := "min_energy") (t := .number 0) (by simp [physics])),
      real_same (D := D) (p (k := "sample_fraction") (t := .number 1) (by simp [physics])),
      truth_same (p (k := "pair_production") (by simp [physics]))]
  have e5 : ∀ u i, readParticle (D := D) r u (numbered "Particle" i) = readParticle r' u (numbered "Particle" i) := by
    intro u i
    unfold readParticle
    simp only [vec_same (D := D) (a i (k := "position") (by simp [particle])),
      vec_same (D := D) (a i (k := "direction") (by simp [particle])),
      count_same (a i (k := "number_particles") (t := .count 1) (by simp [particle])),
      name_same (a i (k := "name") (by simp [particle])),
      str_same (a i (k := "particle_type") (by simp [particle])),
      str_same (a i (k := "energy_distribution") (by simp [particle])),
      real_same (D := D) (a i (k := "energy_mean") (t := .number 0) (by simp [particle])),
      real_same (D := D) (a i (k := "energy_sig") (t := .number 0) (by simp [particle])),
      real_same (D := D) (a i (k := "radius") (t := .number 0) (by simp [particle])),
      real_same (D := D) (a i (k := "divergence") (t := .number 0) (by simp [particle])),
      real_same (D := D) (a i (k := "duration") (t := .number 0) (by simp [particle])),
      truth_same (a i (k := "output") (by simp [particle]))]
  have e6 : ∀ u i, readHistogram (D := D) r u (numbered "Histogram" i) = readHistogram r' u (numbered "Histogram" i) := by
    intro u i
    unfold readHistogram
    simp only [name_same (b i (k := "name") (by simp [histogram])),
      str_same (b i (k := "particle") (by simp [histogram])), str_same (b i (k := "type") (by simp [histogram])),
      real_same (D := D) (b i (k := "time") (t := .number 0) (by simp [histogram])),
      count_same (b i (k := "bins") (t := .count 1) (by simp [histogram])),
      real_same (D := D) (b i (k := "min_bin") (t := .number 0) (by simp [histogram])),
      real_same (D := D) (b i (k := "max_bin") (t := .number 1) (by simp [histogram]))]
  unfold parse
  simp only [e1, e2, e3, e4, fun u => readNumbered_same (fun i => hs _ (.particle i)) (e5 u),
    fun u => readNumbered_same (fun i => hs _ (.histogram i)) (e6 u)]

theorem program_same (t : Main.Tables D) {files files' : List Char → Option (List Char)}
    (h : ∀ p, files p = files' p ∨ ∃ a b, files p = some a ∧ files' p = some b ∧
      parse (D := D) (Reader.ofFile a) = parse (Reader.ofFile b)) (args : List (List Char))
    (raws : Nat → Nat → RawDraws D) (garbage : Nat → Nat) (rng : MCTools.Rng D) (fuel : Nat) :
    Main.program t files args raws garbage rng fuel = Main.program t files' args raws garbage rng fuel := by
  have e : Main.start t files args = Main.start t files' args := by
    unfold Main.start
    congr 1
    funext path
    rcases h path with h | ⟨a, b, h1, h2, h3⟩
    · rw [h]
    · rw [h1, h2]
      simp only [Reader.new, Res.ok_bind, h3]
  unfold Main.program
  rw [e]

end Settings
end QED
