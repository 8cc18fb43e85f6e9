import Verif.Spec.Input
import Verif.Lemmas.FileParser
import Verif.Props.Vectors

set_option autoImplicit false

/-! Values of a written configuration as the file parser sees them. -/

namespace QED

open Ini Num FileParser _root_.QED.Units

section

variable {c : Config} (h : c.WF)
include h

theorem get_of_says {sect name v : List Char} (hs : c.Says sect name v) (d : List Char) :
    (Reader.ofFile (fileOf c.lines)).get sect name d = v ∧
    (Reader.ofFile (fileOf c.lines)).hasValue sect name = true := by
  obtain ⟨s, hs, e, he, h1, h2, rfl⟩ := hs
  exact C61_any_case_partial c h s hs e he sect name d h1 h2

theorem get_of_silent {sect name : List Char} (hn : '=' ∉ name) (hs : c.Silent sect name)
    (d : List Char) :
    (Reader.ofFile (fileOf c.lines)).get sect name d = d ∧
    (Reader.ofFile (fileOf c.lines)).hasValue sect name = false :=
  (C59_round_trip c h).2.2.1 sect name d hn fun s' hs' e he hh =>
    hs e.2 ⟨s', hs', e, he, hh.1.symm, hh.2.symm, rfl⟩

theorem hasValue_iff {sect name : List Char} (hn : '=' ∉ name) :
    (Reader.ofFile (fileOf c.lines)).hasValue sect name = true ↔ ∃ v, c.Says sect name v := by
  constructor
  · intro hv
    by_contra hno
    have := (get_of_silent h hn (sect := sect) (fun v hs => hno ⟨v, hs⟩) []).2
    rw [this] at hv
    cases hv
  · rintro ⟨v, hv⟩
    exact (get_of_says h hv []).2

theorem mem_sections_iff (sect : List Char) :
    sect ∈ (Reader.ofFile (fileOf c.lines)).sections ↔ c.HasEntries sect :=
  (C59_round_trip c h).2.2.2 sect

theorem real_is (sect : List Char) (name : String) (dflt : ℚ) (hn : '=' ∉ name.toList) :
    RealIs c sect name dflt (real (Reader.ofFile (fileOf c.lines)) sect name (Dbl.lit dflt)) := by
  unfold real Reader.getReal
  constructor
  · intro hs
    rw [(get_of_silent h hn hs []).1]
    have : strtod [] = none := rfl
    rw [this]
    simp
  · intro m hm hs
    rw [(get_of_says h hs []).1, strtod_text hm]
    simp

theorem real_is_div (sect : List Char) (name : String) (dflt : ℚ) (hn : '=' ∉ name.toList) (u : ℝ)
    (hu : u ≠ 0) :
    RealIs c sect name dflt
      ((real (Reader.ofFile (fileOf c.lines)) sect name (Dbl.lit dflt) /. u) * u) := by
  have := real_is h sect name dflt hn
  simpa [hu] using this

theorem text_is (sect : List Char) (name : String) (dflt : List Char) (hn : '=' ∉ name.toList) :
    TextIs c sect name dflt
      (String.ofList ((Reader.ofFile (fileOf c.lines)).getString sect name.toList dflt)) := by
  unfold Reader.getString
  constructor
  · intro hs
    rw [(get_of_silent h hn hs []).1]
    simp
  · intro v hv hs
    rw [(get_of_says h hs []).1]
    simp [hv]

theorem nat_is (sect : List Char) (name : String) (dflt : ℕ) (hd : dflt < 2 ^ 32)
    (hn : '=' ∉ name.toList) :
    NatIs c sect name dflt
      (toU32 ((Reader.ofFile (fileOf c.lines)).getInteger sect name.toList dflt)) := by
  have key : ∀ n : ℕ, n < 2 ^ 32 → toU32 (n : Int) = n := by
    intro n hn
    unfold toU32
    omega
  unfold Reader.getInteger
  constructor
  · intro hs
    rw [(get_of_silent h hn hs []).1]
    have : strtol [] = none := rfl
    rw [this]
    exact key _ hd
  · intro n hlt hs
    rw [(get_of_says h hs []).1, strtol_toDigits n (by omega)]
    exact key _ hlt

theorem flag_is (sect : List Char) (name : String) (hn : '=' ∉ name.toList) :
    FlagIs c sect name
      ((Reader.ofFile (fileOf c.lines)).getBoolean sect name.toList false) := by
  unfold Reader.getBoolean
  have e : ∀ w, lower w = w.map Char.toLower := fun _ => rfl
  refine ⟨?_, ?_, ?_⟩
  · intro hs
    rw [(get_of_silent h hn hs []).1]
    decide
  · intro v hs hv
    rw [(get_of_says h hs []).1]
    simp only [e]
    rcases hv with hv | hv | hv | hv <;> rw [show v.map Char.toLower = _ from hv] <;> decide
  · intro v hs hv
    rw [(get_of_says h hs []).1]
    simp only [e]
    rcases hv with hv | hv | hv | hv <;> rw [show v.map Char.toLower = _ from hv] <;> decide

theorem vec_is {sect : List Char} {name : String} {d v : V3 ℝ} (hn : '=' ∉ name.toList)
    (hv : vec (Reader.ofFile (fileOf c.lines)) sect name d = .ok v) : VecIs c sect name v := by
  unfold vec at hv
  constructor
  · intro hs
    rw [C64_default_ignored _ _ _ _ (get_of_silent h hn hs []).2] at hv
    cases hv; rfl
  · intro l m n hl hm hn' hs
    rw [C65_three _ _ _ _ l m n hl hm hn' (Or.inl (get_of_says h hs []).1)] at hv
    cases hv; rfl

end

theorem inUnits_divs (v : V3 ℝ) {u : ℝ} (hu : u ≠ 0) : inUnits (v.divs u) u = v := by
  obtain ⟨x, y, z⟩ := v
  simp [inUnits, V3.divs, hu]

theorem si_freq_pos : (0 : ℝ) < (unitsSI : UnitsSystem ℝ).refFreq := by
  simp only [unitsSI, SI_eSchw, SI_qe, SI_me, SI_c, real_lit, real_mul, real_div]
  norm_num

theorem si_pos : (0 : ℝ) < (unitsSI : UnitsSystem ℝ).refTime ∧
    (0 : ℝ) < (unitsSI : UnitsSystem ℝ).refLength ∧
    (0 : ℝ) < (unitsSI : UnitsSystem ℝ).refEField ∧
    (0 : ℝ) < (unitsSI : UnitsSystem ℝ).refBField ∧
    (0 : ℝ) < (unitsSI : UnitsSystem ℝ).refEnergy := by
  simp only [unitsSI, SI_eSchw, SI_qe, SI_me, SI_c, real_lit, real_mul, real_div]
  norm_num

/-- The constructor of the unit system on the names it knows. -/
theorem units_new {s : String} {u : UnitsSystem ℝ} (h : UnitsSystem.new s = .ok u) : u = unitsSI := by
  unfold UnitsSystem.new at h
  split at h
  · cases h; rfl
  · cases h

/-! ## Outcomes -/

theorem bind_eq_ok {α β : Type} {x : Res α} {f : α → Res β} {b : β} :
    (x >>= f) = .ok b ↔ ∃ a, x = .ok a ∧ f a = .ok b := by
  cases x with
  | ok a => simp
  | exit c => simp
  | throw w => simp
  | ub w => simp

/-- A value or the error code 1. -/
def OkOrOne {α : Type} (x : Res α) : Prop := (∃ a, x = .ok a) ∨ x = .exit 1

theorem OkOrOne.ok {α : Type} (a : α) : OkOrOne (.ok a : Res α) := Or.inl ⟨a, rfl⟩

theorem OkOrOne.exit {α : Type} : OkOrOne (.exit 1 : Res α) := Or.inr rfl

theorem OkOrOne.bind {α β : Type} {x : Res α} {f : α → Res β} (hx : OkOrOne x)
    (hf : ∀ a, OkOrOne (f a)) : OkOrOne (x >>= f) := by
  rcases hx with ⟨a, rfl⟩ | rfl
  · exact hf a
  · exact Or.inr rfl

theorem vec_okOrOne {D : Type} [Dbl D] (r : Reader) (sect : List Char) (name : String) (d : V3 D) :
    OkOrOne (vec r sect name d) := by
  unfold vec Reader.getThreeVector Reader.threeVectorOf
  dsimp only
  split
  · exact .ok _
  · exact .ok _
  · exact .ok _
  · exact .ok _
  · exact .exit

theorem readNumbered_okOrOne {α : Type} (sections : List (List Char)) (pre : String)
    {read : List Char → Res α} (hr : ∀ s, OkOrOne (read s)) : ∀ fuel i,
    OkOrOne (readNumbered sections pre read fuel i) := by
  intro fuel
  induction fuel with
  | zero => intro i; exact .ok _
  | succ fuel ih =>
    intro i
    unfold readNumbered
    split
    · exact (hr _).bind fun a => (ih _).bind fun rest => .ok _
    · exact .ok _

theorem parse_okOrOne {D : Type} [Dbl D] (r : Reader) : OkOrOne (parse (D := D) r) := by
  unfold parse
  refine OkOrOne.bind ?_ fun _ => OkOrOne.bind ?_ fun x => OkOrOne.bind ?_ fun f =>
    OkOrOne.bind ?_ fun ps => OkOrOne.bind ?_ fun hs => .ok _
  · unfold checkVitals
    repeat' split
    all_goals first | exact .exit | exact .ok _
  · unfold readGeneral
    refine OkOrOne.bind ?_ fun u => .ok _
    unfold UnitsSystem.new
    split
    · exact .ok _
    · exact .exit
  · unfold readField
    dsimp only
    split
    · split
      · exact .exit
      · split
        · exact (vec_okOrOne _ _ _ _).bind fun _ => (vec_okOrOne _ _ _ _).bind fun _ => .ok _
        · split
          · exact (vec_okOrOne _ _ _ _).bind fun _ => .ok _
          · refine (vec_okOrOne _ _ _ _).bind fun _ => (vec_okOrOne _ _ _ _).bind fun _ => ?_
            split <;> exact .ok _
    · exact .ok _
  · apply readNumbered_okOrOne
    intro s
    unfold readParticle
    exact (vec_okOrOne _ _ _ _).bind fun _ => (vec_okOrOne _ _ _ _).bind fun _ => .ok _
  · apply readNumbered_okOrOne
    intro s
    exact .ok _

/-- The pieces of a successful parse. -/
theorem parse_eq_ok {D : Type} [Dbl D] {r : Reader} {inp : Input D} :
    parse r = .ok inp ↔ checkVitals r = .ok () ∧ ∃ u g f ps hs,
      readGeneral r = .ok (u, g) ∧ readField r u = .ok f ∧
      readNumbered r.sections "Particle" (readParticle r u) (r.sections.length + 1) 1 = .ok ps ∧
      readNumbered r.sections "Histogram" (readHistogram r u) (r.sections.length + 1) 1 = .ok hs ∧
      inp = ⟨g, f, ps, readPhysics r u, hs⟩ := by
  unfold parse
  simp only [bind_eq_ok]
  constructor
  · rintro ⟨_, h1, ⟨u, g⟩, h2, f, h3, ps, h4, hs, h5, h6⟩
    cases h6
    exact ⟨h1, u, g, f, ps, hs, h2, h3, h4, h5, rfl⟩
  · rintro ⟨h1, u, g, f, ps, hs, h2, h3, h4, h5, rfl⟩
    exact ⟨_, h1, ⟨u, g⟩, h2, f, h3, ps, h4, hs, h5, rfl⟩

/-- The numbered sections that are read, for an arbitrary reading function. -/
theorem readNumbered_ok {α : Type} {sections : List (List Char)} {pre : String}
    {read : List Char → Res α} {xs : List α}
    (h : readNumbered sections pre read (sections.length + 1) 1 = .ok xs) :
    (∀ i, 1 ≤ i → i ≤ xs.length → numbered pre i ∈ sections) ∧
    numbered pre (xs.length + 1) ∉ sections ∧
    ∀ i (hi : i < xs.length), read (numbered pre (i + 1)) = .ok xs[i] := by
  obtain ⟨n, h1, h2, h3⟩ := first_missing sections pre
  rw [readNumbered_spec sections pre read n (sections.length + 1) 1 (by omega)
    (fun j hj => h2 _ (by omega) (by omega)) (by rwa [Nat.add_comm])] at h
  have hf := mapM_ok h
  have hl : n = xs.length := by simpa using hf.length_eq
  subst hl
  refine ⟨h2, h3, ?_⟩
  intro i hi
  have := (List.forall₂_iff_get.mp hf).2 i (by simpa using hi) hi
  simpa [Nat.add_comm] using this

/-- Reading succeeds if every section up to the first missing number can be read. -/
theorem readNumbered_total {α : Type} (sections : List (List Char)) (pre : String)
    {read : List Char → Res α}
    (h : ∀ n, 1 ≤ n → (∀ i, 1 ≤ i → i ≤ n → numbered pre i ∈ sections) →
      ∃ x, read (numbered pre n) = .ok x) : ∀ fuel k,
    (∀ i, 1 ≤ i → i ≤ k → numbered pre i ∈ sections) →
    ∃ xs, readNumbered sections pre read fuel (k + 1) = .ok xs := by
  intro fuel
  induction fuel with
  | zero => intro k _; exact ⟨[], rfl⟩
  | succ fuel ih =>
    intro k hk
    unfold readNumbered
    split
    · rename_i hin
      have hk' : ∀ i, 1 ≤ i → i ≤ k + 1 → numbered pre i ∈ sections := by
        intro i h1 h2
        rcases Nat.lt_or_ge k i with h3 | h3
        · have : i = k + 1 := by omega
          rw [this]; exact hin
        · exact hk i h1 h3
      obtain ⟨x, hx⟩ := h (k + 1) (by omega) hk'
      obtain ⟨xs, hxs⟩ := ih (k + 1) hk'
      rw [hx, Res.ok_bind, hxs]
      exact ⟨x :: xs, rfl⟩
    · exact ⟨[], rfl⟩

end QED
