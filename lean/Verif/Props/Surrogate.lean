import Verif.Lemmas.Surrogate
import Verif.Props.GeantProcess
import Verif.Props.Geometry

set_option autoImplicit false
set_option linter.unusedSectionVars false

/-!
# Properties C115, C116, C117: the surrogate process of Geant4
-/

namespace QED

open Dbl MCTools G4 TableFile

variable {D : Type} [Dbl D]

/-! ## C115 Missing or incomplete files of the surrogate are reported -/

/-- A file in a directory. -/
local notation dir " ∕ " name:max => dir ++ String.toList name

/-- What holds of C115: a model that is missing makes the loading fail with an exception, and only that. -/
theorem C115_models_partial (s : Surrogate D) (d : Disk D) (seed elec phot : List Char) :
    ((∃ s', s.loadGraphs d seed elec phot = .ok s') ↔
      (∃ e, d.mixture (elec ∕ "/param_graph.pb") = some e) ∧ (∃ p, d.mixture (phot ∕ "/param_graph.pb") = some p) ∧
        ∃ c, d.count (phot ∕ "/count_graph.pb") = some c) ∧
    ((∃ s', s.loadGraphs d seed elec phot = .ok s') ∨ ∃ w, s.loadGraphs d seed elec phot = .throw w) := by
  unfold Surrogate.loadGraphs
  cases d.mixture (elec ∕ "/param_graph.pb") with
  | none => simp [Graph.load]
  | some e =>
    cases d.mixture (phot ∕ "/param_graph.pb") with
    | none => simp [Graph.load]
    | some p =>
      cases d.count (phot ∕ "/count_graph.pb") with
      | none => simp [Graph.load]
      | some c => simp [Graph.load]

/-- C115 is false: whatever the models, if the file with the input ranges is missing or lists too few
numbers, loading succeeds all the same, and no crossing after it is defined. If the file with the electron's
or the photons' scales is missing or short, the same holds of the crossings (with photons) for which the models
answer. -/
theorem C115_refuted (d : Disk D) (seed elec phot : List Char) (e p : List D → Option (Mixture D))
    (c : List D → Option D) (he : d.mixture (elec ∕ "/param_graph.pb") = some e)
    (hp : d.mixture (phot ∕ "/param_graph.pb") = some p) (hc : d.count (phot ∕ "/count_graph.pb") = some c) :
    ∃ s, Surrogate.new.loadGraphs d seed elec phot = .ok s ∧
      (Incomplete d (seed ∕ "/in_meta.dat") 6 →
        ∀ (t : Crossing D) (r : Draws D), ∃ w, s.postStep t r = .ub w) ∧
      ((∀ xs, e xs ≠ none ∧ p xs ≠ none ∧ c xs ≠ none) → Incomplete d (elec ∕ "/meta.dat") 3 →
        ∀ (t : Crossing D) (r : Draws D), ∃ w, s.postStep t r = .ub w) ∧
      ((∀ xs, e xs ≠ none ∧ p xs ≠ none ∧ c xs ≠ none) → Incomplete d (phot ∕ "/meta.dat") 3 →
        ∀ (t : Crossing D) (r : Draws D), (∀ x, r.poisson x ≠ 0) → ∃ w, s.postStep t r = .ub w) := by
  refine ⟨_, by unfold Surrogate.loadGraphs; rw [he, hp, hc]; rfl, ?_, ?_, ?_⟩
  · intro h t r
    obtain ⟨w, hw⟩ := useAll_none (incomplete_none (by norm_num) h)
    refine ⟨w, ?_⟩
    unfold Surrogate.postStep Surrogate.input
    dsimp only [Surrogate.new]
    rw [hw]
    rfl
  · intro hn h t r
    obtain ⟨w, hw⟩ := useAll_none (incomplete_none (by norm_num) h)
    generalize hs : Surrogate.mk (some (Graph.mk 6 e)) _ _ _ _ _ _ = s
    have h4 : scales s.elecParams = .ub w := by
      subst hs
      unfold scales
      dsimp only [Surrogate.new]
      rw [hw]
      rfl
    rcases plain_input s t with ⟨v, hv⟩ | ⟨xs, hx⟩
    · exact ⟨v, by unfold Surrogate.postStep; rw [hv]; rfl⟩
    obtain ⟨n1, n2, n3⟩ := hn xs
    obtain ⟨x1, h1⟩ := Option.ne_none_iff_exists'.1 n1
    obtain ⟨x2, h2⟩ := Option.ne_none_iff_exists'.1 n2
    obtain ⟨x3, h3⟩ := Option.ne_none_iff_exists'.1 n3
    rw [postStep_models (ne := e) (np := p) (nc := c) (by rw [← hs]) (by rw [← hs]) (by rw [← hs]) hx h1 h2 h3, h4]
    by_cases hz : r.poisson x3 = 0
    · rw [if_pos hz]
      exact ⟨w, rfl⟩
    · rw [if_neg hz]
      rcases plain_scales s.photParams with ⟨v, hv⟩ | ⟨v, hv⟩
      · exact ⟨v, by rw [hv]; rfl⟩
      · exact ⟨w, by rw [hv]; rfl⟩
  · intro hn h t r hr
    obtain ⟨w, hw⟩ := useAll_none (incomplete_none (by norm_num) h)
    generalize hs : Surrogate.mk (some (Graph.mk 6 e)) _ _ _ _ _ _ = s
    have h4 : scales s.photParams = .ub w := by
      subst hs
      unfold scales
      dsimp only [Surrogate.new]
      rw [hw]
      rfl
    rcases plain_input s t with ⟨v, hv⟩ | ⟨xs, hx⟩
    · exact ⟨v, by unfold Surrogate.postStep; rw [hv]; rfl⟩
    obtain ⟨n1, n2, n3⟩ := hn xs
    obtain ⟨x1, h1⟩ := Option.ne_none_iff_exists'.1 n1
    obtain ⟨x2, h2⟩ := Option.ne_none_iff_exists'.1 n2
    obtain ⟨x3, h3⟩ := Option.ne_none_iff_exists'.1 n3
    rw [postStep_models (ne := e) (np := p) (nc := c) (by rw [← hs]) (by rw [← hs]) (by rw [← hs]) hx h1 h2 h3, h4,
      if_neg (hr x3)]
    exact ⟨w, rfl⟩

/-- With complete files the crossing is what the models say of the scaled electron: the models are given the
momentum (in units of `m c`), position and proper time, divided by the numbers of the first file, one being
added to the first two; a model that cannot answer stops the run with an exception; and otherwise electron and
photons are sampled from the answers with the scales of the other files. -/
theorem C115_complete_partial (d : Disk D) (seed elec phot : List Char) (ne np : List D → Option (Mixture D))
    (nc : List D → Option D) (he : d.mixture (elec ∕ "/param_graph.pb") = some ne)
    (hp : d.mixture (phot ∕ "/param_graph.pb") = some np) (hc : d.count (phot ∕ "/count_graph.pb") = some nc)
    {a0 a1 a2 a3 a4 a5 b0 b1 b2 c0 c1 c2 : Numeral} {as bs cs : List Numeral} {ta tb tc : List Char}
    (ha : d.text (seed ∕ "/in_meta.dat") = some ta) (la : Lists ([a0, a1, a2, a3, a4, a5] ++ as) ta)
    (hb : d.text (elec ∕ "/meta.dat") = some tb) (lb : Lists ([b0, b1, b2] ++ bs) tb)
    (hcc : d.text (phot ∕ "/meta.dat") = some tc) (lc : Lists ([c0, c1, c2] ++ cs) tc) :
    ∃ s, Surrogate.new.loadGraphs d seed elec phot = .ok s ∧
      ∀ (lag : D) (t : Crossing D) (r : Draws D), ∃ xs : List D,
        xs = [(t.momentum.smul (Units.unitsSI : Units.UnitsSystem D).g4Energy).x /. (num a0 +. lit 1),
          (t.momentum.smul (Units.unitsSI : Units.UnitsSystem D).g4Energy).y /. (num a1 +. lit 1),
          (t.momentum.smul (Units.unitsSI : Units.UnitsSystem D).g4Energy).z /. num a2,
          t.position.x /. num a3, t.position.y /. num a4, (t.properTime -. lag) /. num a5] ∧
        (ne xs = none ∨ np xs = none ∨ nc xs = none →
          (s.setTimeLag lag).postStep t r = .throw "Error running graph!") ∧
        ∀ e p c, ne xs = some e → np xs = some p → nc xs = some c →
          (s.setTimeLag lag).postStep t r =
            tfPostStep e p ⟨num b0, num b1, num b2⟩ ⟨num c0, num c1, num c2⟩ r.u r.sampler
              (r.photons (r.poisson c)) := by
  refine ⟨_, by unfold Surrogate.loadGraphs; rw [he, hp, hc]; rfl, ?_⟩
  intro lag t r
  generalize hs : Surrogate.setTimeLag _ lag = s
  have p1 : s.inParams = [a0, a1, a2, a3, a4, a5].map fun a => some (num a : D) := by
    subst hs
    dsimp only [Surrogate.new, Surrogate.setTimeLag, openText]
    rw [ha]
    exact readInto_full _ [a0, a1, a2, a3, a4, a5] as ta la rfl
  have p2 : s.elecParams = [b0, b1, b2].map fun a => some (num a : D) := by
    subst hs
    dsimp only [Surrogate.new, Surrogate.setTimeLag, openText]
    rw [hb]
    exact readInto_full _ [b0, b1, b2] bs tb lb rfl
  have p3 : s.photParams = [c0, c1, c2].map fun a => some (num a : D) := by
    subst hs
    dsimp only [Surrogate.new, Surrogate.setTimeLag, openText]
    rw [hcc]
    exact readInto_full _ [c0, c1, c2] cs tc lc rfl
  have p4 : s.timeLag = lag := by rw [← hs]; rfl
  have q1 : s.elec = some ⟨6, ne⟩ := by rw [← hs]; rfl
  have q2 : s.phot = some ⟨6, np⟩ := by rw [← hs]; rfl
  have q3 : s.photCount = some ⟨6, nc⟩ := by rw [← hs]; rfl
  have hin : s.input t = .ok
        [(t.momentum.smul (Units.unitsSI : Units.UnitsSystem D).g4Energy).x /. (num a0 +. lit 1),
          (t.momentum.smul (Units.unitsSI : Units.UnitsSystem D).g4Energy).y /. (num a1 +. lit 1),
          (t.momentum.smul (Units.unitsSI : Units.UnitsSystem D).g4Energy).z /. num a2,
          t.position.x /. num a3, t.position.y /. num a4, (t.properTime -. lag) /. num a5] := by
    unfold Surrogate.input
    rw [p1, useAll_some, p4]
    rfl
  refine ⟨_, rfl, ?_, ?_⟩
  · intro hnone
    have hl := input_length hin
    unfold Surrogate.postStep
    rw [hin, q1, q2, q3]
    dsimp only [use]
    rw [Res.ok_bind, Res.ok_bind, Res.ok_bind, Res.ok_bind, run_six ne hl, run_six np hl, run_six nc hl]
    generalize ne _ = x1, np _ = x2, nc _ = x3 at hnone ⊢
    cases x1 with
    | none => rfl
    | some x1 =>
      cases x2 with
      | none => rfl
      | some x2 =>
        cases x3 with
        | none => rfl
        | some x3 => simp at hnone
  · intro e p c h1 h2 h3
    rw [postStep_models q1 q2 q3 hin h1 h2 h3]
    have s2 : scales s.elecParams = .ok ⟨num b0, num b1, num b2⟩ := by
      unfold scales; rw [p2, useAll_some]; rfl
    have s3 : scales s.photParams = .ok ⟨num c0, num c1, num c2⟩ := by
      unfold scales; rw [p3, useAll_some]; rfl
    rw [s2, s3]
    by_cases hz : r.poisson c = 0
    · rw [if_pos hz, hz]
      rfl
    · rw [if_neg hz]
      rfl

/-- A file with `n` ones. -/
theorem lists_ones : ∀ n : Nat, Lists (List.replicate n (⟨false, [1], none, none⟩ : Numeral))
    (List.replicate n [' ', '1']).flatten
  | 0 => .done (by simp)
  | n + 1 => by
    have := Lists.more (ws := [' ']) (e := 'e') (n := ⟨false, [1], none, none⟩)
      (rest := (List.replicate n [' ', '1']).flatten) (by simp [Ini.isSpace]) (.inl rfl)
      ⟨.inl (by simp), by simp⟩ (by cases n <;> simp [List.replicate_succ, Ini.isSpace]) (lists_ones n)
    exact this

/-- Models without any text, and models with complete texts. -/
example : ∃ (m : Mixture ℝ) (d d' : Disk ℝ), (∀ path, d.mixture path = some fun _ => some m) ∧
    (∀ path, d.count path = some fun _ => some 1) ∧ (∀ path, d'.mixture path = d.mixture path) ∧
    (∀ path, d'.count path = d.count path) ∧ (∀ path, Incomplete d path 6 ∧ Incomplete d path 3) ∧
    ∀ path, ∃ text, d'.text path = some text ∧
      Lists (List.replicate 6 (⟨false, [1], none, none⟩ : Numeral)) text :=
  ⟨⟨[1], [⟨0, 0, 0⟩], [⟨1, 1, 1⟩], [⟨0, 0, 0⟩]⟩,
    ⟨fun _ => some fun _ => some ⟨[1], [⟨0, 0, 0⟩], [⟨1, 1, 1⟩], [⟨0, 0, 0⟩]⟩, fun _ => some fun _ => some 1,
      fun _ => none⟩,
    ⟨fun _ => some fun _ => some ⟨[1], [⟨0, 0, 0⟩], [⟨1, 1, 1⟩], [⟨0, 0, 0⟩]⟩, fun _ => some fun _ => some 1,
      fun _ => some (List.replicate 6 [' ', '1']).flatten⟩,
    fun _ => rfl, fun _ => rfl, fun _ => rfl, fun _ => rfl, fun _ => ⟨.inl rfl, .inl rfl⟩,
    fun _ => ⟨_, rfl, lists_ones 6⟩⟩

/-! ## C116 The surrogate process frees what it allocates -/

/-- How often models are loaded. -/
def loads : List TfAct → Nat
  | [] => 0
  | .load :: as => loads as + 1
  | _ :: as => loads as

theorem tf_acts : ∀ (as : List TfAct) (t : TfHeap) (k : Nat), TfInv t k →
    ((∃ t', t.acts as = .ok t') ↔
      (k = 0 → ∀ before n after, as = before ++ TfAct.postStep n :: after → TfAct.load ∈ before)) ∧
    ∀ t', t.acts as = .ok t' → TfInv t' (k + loads as)
  | [], t, k, h => ⟨⟨fun _ _ before n after e => by simp at e, fun _ => ⟨t, rfl⟩⟩, fun t' e => by cases e; exact h⟩
  | .load :: as, t, k, h => by
    have ih := tf_acts as t.load (k + 1) h.load
    have e : t.acts (.load :: as) = t.load.acts as := rfl
    rw [e]
    refine ⟨ih.1.trans ⟨fun _ _ before n after e => ?_, fun _ h => absurd h (by omega)⟩, fun t' h' => ?_⟩
    · cases before with
      | nil => simp at e
      | cons b before => simp only [List.cons_append, List.cons.injEq] at e; simp [← e.1]
    · have := ih.2 t' h'
      rwa [show k + 1 + loads as = k + loads (.load :: as) from by simp only [loads]; omega] at this
  | .kernelDelete a :: as, t, k, h => by
    obtain ⟨t1, e1, h1⟩ := h.kernelDelete (a := a)
    have ih := tf_acts as t1 k h1
    have e : t.acts (.kernelDelete a :: as) = t1.acts as := by rw [TfHeap.acts, e1]; rfl
    rw [e, ih.1]
    refine ⟨⟨fun H hk before n after e => ?_, fun H hk before n after e => ?_⟩, fun t' h' => ?_⟩
    · cases before with
      | nil => simp at e
      | cons b before =>
        simp only [List.cons_append, List.cons.injEq] at e
        exact List.mem_cons_of_mem _ (H hk before n after e.2)
    · have := H hk (.kernelDelete a :: before) n after (by rw [e]; rfl)
      simpa using this
    · exact ih.2 t' h'
  | .postStep m :: as, t, k, h => by
    by_cases hk : k = 0
    · have hg := h.graphs
      rw [if_pos hk] at hg
      have e : t.acts (.postStep m :: as) = .ub "use of an indeterminate pointer" := by
        rw [TfHeap.acts]
        simp only [TfHeap.act]
        rw [if_pos (.inl hg.1)]
        rfl
      rw [e]
      refine ⟨⟨fun ⟨t', h'⟩ => (by cases h'), fun H => ?_⟩, fun t' h' => by cases h'⟩
      have := H hk [] m as rfl
      simp at this
    · have hg := h.graphs
      rw [if_neg hk] at hg
      have e : t.acts (.postStep m :: as) = (t.hand m).acts as := by
        rw [TfHeap.acts]
        simp only [TfHeap.act]
        rw [if_neg (by simp [hg])]
        rfl
      have ih := tf_acts as (t.hand m) k (h.hand m)
      rw [e]
      refine ⟨ih.1.trans ⟨fun _ h0 => absurd h0 hk, fun _ h0 => absurd h0 hk⟩, fun t' h' => ?_⟩
      exact ih.2 t' h'

/-- C116 is false: no process can be destroyed, whatever was done with it before. The destructor frees the
pointer to the positron's model, which nothing ever sets (or, before anything is loaded, the pointer to the
electron's, which is not set either). -/
theorem C116_refuted (as : List TfAct) (t : TfHeap) (h : TfHeap.new.acts as = .ok t) :
    t.destroy = .ub "delete of an indeterminate pointer" := by
  have hi := (tf_acts as _ 0 TfInv.new).2 t h
  unfold TfHeap.destroy
  rcases hi.elec with h1 | ⟨a, h1, h2, -⟩
  · rw [h1]; rfl
  · rw [h1, hi.posi]
    simp [Member.delete, Heap.free, h2]

/-- Nor are models freed when others are loaded: after any history there are, besides the units and the
photons that Geant4 owns, six objects for each time that models were loaded. -/
theorem C116_leak (as : List TfAct) (t : TfHeap) (h : TfHeap.new.acts as = .ok t) :
    t.heap.live.length = 1 + 6 * loads as +
      t.handed.length := by
  have hi := (tf_acts as _ 0 TfInv.new).2 t h
  simpa using hi.count

/-- What holds of C116: until then every history goes through in which models are loaded before the first
crossing, and the photons are Geant4's to free. -/
theorem C116_calls_partial (as : List TfAct) :
    ((∃ t, TfHeap.new.acts as = .ok t) ↔
      ∀ before n after, as = before ++ TfAct.postStep n :: after → TfAct.load ∈ before) ∧
    ∀ t, TfHeap.new.acts as = .ok t → t.handed.Nodup ∧ ∀ a ∈ t.handed, a ∈ t.heap.live :=
  ⟨(tf_acts as _ 0 TfInv.new).1.trans ⟨fun H => H rfl, fun H _ => H⟩, fun t h =>
    have hi := (tf_acts as _ 0 TfInv.new).2 t h
    ⟨hi.handedNodup, hi.handed⟩⟩

/-- Models, a crossing with two photons of which Geant4 deletes one, and other models. -/
example : ∃ t, TfHeap.new.acts [.load, .postStep 2, .kernelDelete 7, .load] = .ok t ∧ t.handed = [8] ∧
    t.heap.live.length = 14 := ⟨_, rfl, by decide, by decide⟩

/-! ## C117 The electron leaves with the momentum that the surrogate predicts -/

/-- The electron of a crossing. -/
theorem tf_electron {elec phot : Mixture ℝ} {ep pp : V3 ℝ} {u : ℝ} {f : V3 ℝ → V3 ℝ → V3 ℝ → V3 ℝ}
    {ds : List (ℝ × (V3 ℝ → V3 ℝ → V3 ℝ → V3 ℝ))} {ch : Change ℝ}
    (h : tfPostStep elec phot ep pp u f ds = .ok ch) :
    ∃ i a b c, randDiscrete elec.frac u = .ok i ∧ elec.mean[i]? = some a ∧ elec.sigma[i]? = some b ∧
      elec.skew[i]? = some c ∧ ch.energy = Real.sqrt ((scale (f a b c) ep).mag2 + 1) / MeV ∧
      ch.direction = G4.unit (scale (f a b c) ep) := by
  unfold tfPostStep at h
  obtain ⟨i, h1, h⟩ := Res.bind_eq_ok.1 h
  obtain ⟨e, h2, h⟩ := Res.bind_eq_ok.1 h
  obtain ⟨ps, -, h⟩ := Res.bind_eq_ok.1 h
  unfold Mixture.sample at h2
  obtain ⟨a, ha, h2⟩ := Res.bind_eq_ok.1 h2
  obtain ⟨b, hb, h2⟩ := Res.bind_eq_ok.1 h2
  obtain ⟨c, hc, h2⟩ := Res.bind_eq_ok.1 h2
  cases h2
  cases h
  have rd_some : ∀ {l : List (V3 ℝ)} {i : Nat} {x : V3 ℝ}, rd l i = .ok x → l[i]? = some x := by
    intro l i x hx
    unfold rd at hx
    split at hx
    · rename_i y hy
      cases hx
      exact hy
    · cases hx
  refine ⟨i, a, b, c, h1, rd_some ha, rd_some hb, rd_some hc, ?_, rfl⟩
  simp only [g4Energy_eq, real_div, real_sqrt, real_add, real_lit, Rat.cast_one]

/-- C117 is false for every crossing: Geant4 takes the proposed energy as the kinetic energy, but it is the
total energy of an electron with the predicted momentum `p` (in units of `m c`). The electron that leaves has
one rest energy too much. -/
theorem C117_refuted (elec phot : Mixture ℝ) (ep pp : V3 ℝ) (u : ℝ)
    (f : V3 ℝ → V3 ℝ → V3 ℝ → V3 ℝ) (ds : List (ℝ × (V3 ℝ → V3 ℝ → V3 ℝ → V3 ℝ))) (ch : Change ℝ)
    (h : tfPostStep elec phot ep pp u f ds = .ok ch) :
    ∃ i a b c, randDiscrete elec.frac u = .ok i ∧ elec.mean[i]? = some a ∧ elec.sigma[i]? = some b ∧
      elec.skew[i]? = some c ∧ ∀ p : V3 ℝ, p = ⟨(f a b c).x * ep.x, (f a b c).y * ep.y, (f a b c).z * ep.z⟩ →
        ch.energy * MeV = (Real.sqrt (len p.toVec ^ 2 + 1) - 1) + 1 ∧
        ch.energy * MeV ≠ Real.sqrt (len p.toVec ^ 2 + 1) - 1 := by
  obtain ⟨i, a, b, c, h1, h2, h3, h4, h5, -⟩ := tf_electron h
  refine ⟨i, a, b, c, h1, h2, h3, h4, ?_⟩
  rintro p rfl
  have : Real.sqrt ((scale (f a b c) ep).mag2 + 1) / MeV * MeV =
      Real.sqrt (len (⟨(f a b c).x * ep.x, (f a b c).y * ep.y, (f a b c).z * ep.z⟩ : V3 ℝ).toVec ^ 2 + 1) := by
    rw [div_mul_cancel₀ _ MeV_pos.ne', mag2_eq]
    rfl
  rw [h5, this]
  constructor
  · ring
  · intro hh
    linarith

/-- What holds of C117: the direction is that of the predicted momentum. -/
theorem C117_direction_partial (elec phot : Mixture ℝ) (ep pp : V3 ℝ) (u : ℝ)
    (f : V3 ℝ → V3 ℝ → V3 ℝ → V3 ℝ) (ds : List (ℝ × (V3 ℝ → V3 ℝ → V3 ℝ → V3 ℝ))) (ch : Change ℝ)
    (h : tfPostStep elec phot ep pp u f ds = .ok ch) :
    ∃ i a b c, randDiscrete elec.frac u = .ok i ∧ elec.mean[i]? = some a ∧ elec.sigma[i]? = some b ∧
      elec.skew[i]? = some c ∧ ∀ p : V3 ℝ, p = ⟨(f a b c).x * ep.x, (f a b c).y * ep.y, (f a b c).z * ep.z⟩ →
        p.toVec ≠ 0 → IsUnitAlong ch.direction.toVec p.toVec := by
  obtain ⟨i, a, b, c, h1, h2, h3, h4⟩ := tf_electron h
  exact ⟨i, a, b, c, h1, h2, h3, h4.1, fun p hp h0 => by
    subst hp
    rw [h4.2.2]
    exact unit_along h0⟩

/-- A crossing with one component and two photons. -/
example : ∃ (m : Mixture ℝ) (ch : Change ℝ), tfPostStep m m ⟨1, 1, 1⟩ ⟨1, 1, 1⟩ (1 / 2) (fun a _ _ => a)
    [(0, fun a _ _ => a), (1 / 2, fun a _ _ => a)] = .ok ch ∧ ch.secondaries.length = 2 := by
  obtain ⟨ch, h1, h2⟩ := C85_count_partial ⟨[1], [⟨3, 0, 4⟩], [⟨1, 1, 1⟩], [⟨0, 0, 0⟩]⟩
    ⟨[1], [⟨3, 0, 4⟩], [⟨1, 1, 1⟩], [⟨0, 0, 0⟩]⟩ ⟨1, 1, 1⟩ ⟨1, 1, 1⟩ (1 / 2) ⟨by simp, by norm_num⟩
    (fun a _ _ => a) [(0, fun a _ _ => a), (1 / 2, fun a _ _ => a)] (by norm_num)
    (by intro d hd; fin_cases hd <;> norm_num) (by simp [Mixture.Has]) (by simp [Mixture.Has])
  exact ⟨_, ch, h1, h2⟩

end QED
