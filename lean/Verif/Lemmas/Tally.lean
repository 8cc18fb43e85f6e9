import Verif.Spec.Tally
import Verif.Lemmas.RadiationEvent

set_option autoImplicit false

/-! # Totals over the history of a lepton: means -/

namespace QED

open MeasureTheory MCTools

namespace Tally

variable {α : Type} {push : α → α} {rate : α → ℝ} {kick : α → ℝ → α}

theorem exp_sum {r : ℝ} (hr : 0 ≤ r) : ENNReal.ofReal (Real.exp (-r)) + ENNReal.ofReal (1 - Real.exp (-r)) = 1 := by
  rw [← ENNReal.ofReal_add (Real.exp_pos _).le]
  · simp
  · have := Real.exp_le_one_iff.mpr (neg_nonpos.mpr hr)
    linarith

/-- Adding a constant. -/
theorem add_const (hr : ∀ q, 0 ≤ rate q) (n : Nat) (q : α) (c : ENNReal) (G : List (Option ℝ) → ENNReal) :
    memoryless push rate kick n q (fun h => c + G h) = c + memoryless push rate kick n q G := by
  induction n generalizing q G with
  | zero => rfl
  | succ n ih =>
    simp only [memoryless, ih]
    rw [lintegral_add_left measurable_const, lintegral_unit, mul_add, mul_add]
    have := exp_sum (hr (push q))
    generalize ENNReal.ofReal (Real.exp (-rate (push q))) = a at *
    generalize ENNReal.ofReal (1 - Real.exp (-rate (push q))) = b at *
    calc _ = (a + b) * c + (a * memoryless push rate kick n (push q) (fun h => G (none :: h)) +
          b * ∫⁻ v in Set.Ico (0 : ℝ) 1, memoryless push rate kick n (kick (push q) v) (fun h => G (some v :: h))) := by ring
      _ = _ := by rw [this, one_mul]

theorem steps_succ (hr : ∀ q, 0 ≤ rate q) (f : α → ENNReal) (n : Nat) (q : α) :
    memoryless push rate kick (n + 1) q (fun h => overSteps push kick f h q) =
      f (push q) + (ENNReal.ofReal (Real.exp (-rate (push q))) *
          memoryless push rate kick n (push q) (fun h => overSteps push kick f h (push q)) +
        ENNReal.ofReal (1 - Real.exp (-rate (push q))) * ∫⁻ v in Set.Ico (0 : ℝ) 1,
          memoryless push rate kick n (kick (push q) v) (fun h => overSteps push kick f h (kick (push q) v))) := by
  simp only [memoryless, overSteps, add_const hr]
  rw [lintegral_add_left measurable_const, lintegral_unit]
  have := exp_sum (hr (push q))
  generalize ENNReal.ofReal (Real.exp (-rate (push q))) = a at *
  generalize ENNReal.ofReal (1 - Real.exp (-rate (push q))) = b at *
  generalize memoryless push rate kick n (push q) (fun h => overSteps push kick f h (push q)) = x
  generalize (∫⁻ v in Set.Ico (0 : ℝ) 1,
    memoryless push rate kick n (kick (push q) v) (fun h => overSteps push kick f h (kick (push q) v))) = y
  calc a * (f (push q) + x) + b * (f (push q) + y) = (a + b) * f (push q) + (a * x + b * y) := by ring
    _ = _ := by rw [this, one_mul]

theorem emissions_succ (hr : ∀ q, 0 ≤ rate q) {g : α → ℝ → ENNReal} (hg : ∀ q, Measurable (g q)) (n : Nat) (q : α) :
    memoryless push rate kick (n + 1) q (fun h => overEmissions push kick g h q) =
      ENNReal.ofReal (1 - Real.exp (-rate (push q))) * overSpectrum g (push q) +
      (ENNReal.ofReal (Real.exp (-rate (push q))) *
          memoryless push rate kick n (push q) (fun h => overEmissions push kick g h (push q)) +
        ENNReal.ofReal (1 - Real.exp (-rate (push q))) * ∫⁻ v in Set.Ico (0 : ℝ) 1,
          memoryless push rate kick n (kick (push q) v) (fun h => overEmissions push kick g h (kick (push q) v))) := by
  simp only [memoryless, overEmissions, add_const hr]
  rw [lintegral_add_left (hg _)]
  unfold overSpectrum
  ring

/-- The mean over the emissions is the mean over the steps of the chance of an emission times the mean over the
spectrum. -/
theorem law (hr : ∀ q, 0 ≤ rate q) {g : α → ℝ → ENNReal} (hg : ∀ q, Measurable (g q)) (n : Nat) (q : α) :
    memoryless push rate kick n q (fun h => overEmissions push kick g h q) =
      memoryless push rate kick n q (fun h => overSteps push kick
        (fun x => ENNReal.ofReal (1 - Real.exp (-rate x)) * overSpectrum g x) h q) := by
  induction n generalizing q with
  | zero => rfl
  | succ n ih =>
    rw [emissions_succ hr hg, steps_succ hr, ih]
    simp only [ih]

/-- Where `f` is never more than `f'`, neither is its total. -/
theorem steps_mono (hr : ∀ q, 0 ≤ rate q) {Q : α → Prop} (h1 : ∀ q, Q q → Q (push q))
    (h2 : ∀ q, Q q → 0 < rate (push q) → ∀ v, 0 ≤ v → v < 1 → Q (kick (push q) v)) {f f' : α → ENNReal}
    (hf : ∀ q, Q q → f (push q) ≤ f' (push q)) (n : Nat) (q : α) (hq : Q q) :
    memoryless push rate kick n q (fun h => overSteps push kick f h q) ≤
      memoryless push rate kick n q (fun h => overSteps push kick f' h q) := by
  induction n generalizing q with
  | zero => exact le_rfl
  | succ n ih =>
    rw [steps_succ hr, steps_succ hr]
    refine add_le_add (hf q hq) (add_le_add (mul_le_mul_right (ih _ (h1 q hq)) _) ?_)
    rcases (hr (push q)).eq_or_lt with h0 | h0
    · rw [← h0]
      simp
    · refine mul_le_mul_right (setLIntegral_mono' measurableSet_Ico fun v hv => ih _ (h2 q hq h0 v hv.1 hv.2)) _

/-- A factor. -/
theorem steps_mul (hr : ∀ q, 0 ≤ rate q) {c : ENNReal} (hc : c ≠ ⊤) (f : α → ENNReal) (n : Nat) (q : α) :
    memoryless push rate kick n q (fun h => overSteps push kick (fun x => c * f x) h q) =
      c * memoryless push rate kick n q (fun h => overSteps push kick f h q) := by
  induction n generalizing q with
  | zero => simp [memoryless, overSteps]
  | succ n ih =>
    rw [steps_succ hr, steps_succ hr, ih]
    simp only [ih]
    rw [lintegral_const_mul' _ _ hc]
    ring

/-- A constant per step. -/
theorem steps_const (hr : ∀ q, 0 ≤ rate q) (c : ENNReal) (n : Nat) (q : α) :
    memoryless push rate kick n q (fun h => overSteps push kick (fun _ => c) h q) = n * c := by
  induction n generalizing q with
  | zero => simp [memoryless, overSteps]
  | succ n ih =>
    rw [steps_succ hr, ih]
    simp only [ih, lintegral_unit]
    rw [← add_mul, exp_sum (hr (push q))]
    push_cast
    ring

theorem exp_above (x : ℝ) : 1 - Real.exp (-x) ≤ x := by
  have := Real.add_one_le_exp (-x)
  linarith

theorem exp_below {x : ℝ} (h : 0 ≤ x) : x - x ^ 2 / 2 ≤ 1 - Real.exp (-x) := by
  have h1 := Real.quadratic_le_exp_of_nonneg h
  have h2 : Real.exp (-x) * Real.exp x = 1 := by rw [← Real.exp_add]; simp
  have h3 := Real.exp_pos (-x)
  have h4 : Real.exp (-x) ≤ 1 / (1 + x + x ^ 2 / 2) := by
    rw [le_div_iff₀ (by positivity)]
    calc Real.exp (-x) * (1 + x + x ^ 2 / 2) ≤ Real.exp (-x) * Real.exp x := mul_le_mul_of_nonneg_left h1 h3.le
      _ = 1 := h2
  have h5 : 1 / (1 + x + x ^ 2 / 2) ≤ 1 - x + x ^ 2 / 2 := by
    rw [div_le_iff₀ (by positivity)]
    nlinarith [sq_nonneg (x ^ 2)]
  linarith

/-- Where the first step is less, so is the total. -/
theorem steps_lt (hr : ∀ q, 0 ≤ rate q) {Q : α → Prop} (h1 : ∀ q, Q q → Q (push q))
    (h2 : ∀ q, Q q → 0 < rate (push q) → ∀ v, 0 ≤ v → v < 1 → Q (kick (push q) v)) {n : Nat} {q : α} (hq : Q q)
    {S : α → ENNReal} (hle : ∀ q, Q q → ENNReal.ofReal (1 - Real.exp (-rate (push q))) * S (push q) ≤
      ENNReal.ofReal (rate (push q)) * S (push q)) (h0 : 0 < rate (push q)) (hs : S (push q) ≠ 0)
    (hfin : memoryless push rate kick (n + 1) q
      (fun h => overSteps push kick (fun x => ENNReal.ofReal (1 - Real.exp (-rate x)) * S x) h q) ≠ ⊤) :
    memoryless push rate kick (n + 1) q
      (fun h => overSteps push kick (fun x => ENNReal.ofReal (1 - Real.exp (-rate x)) * S x) h q) <
    memoryless push rate kick (n + 1) q (fun h => overSteps push kick (fun x => ENNReal.ofReal (rate x) * S x) h q) := by
  rw [steps_succ hr] at hfin ⊢
  rw [steps_succ hr]
  have hpos : 0 < 1 - Real.exp (-rate (push q)) := by
    have := Real.exp_lt_one_iff.mpr (neg_lt_zero.mpr h0)
    linarith
  have hlt : 1 - Real.exp (-rate (push q)) < rate (push q) := by
    have := Real.add_one_lt_exp (neg_ne_zero.mpr h0.ne')
    linarith
  obtain ⟨f1, f2⟩ := ENNReal.add_ne_top.mp hfin
  have hS : S (push q) ≠ ⊤ := by
    intro h
    rw [h, ENNReal.mul_top (by simpa using hpos)] at f1
    exact f1 rfl
  refine ENNReal.add_lt_add_of_lt_of_le f2 ?_ ?_
  · exact ENNReal.mul_lt_mul_left hs hS ((ENNReal.ofReal_lt_ofReal_iff h0).mpr hlt)
  · refine add_le_add (mul_le_mul_right (steps_mono hr h1 h2 hle n _ (h1 q hq)) _) ?_
    exact mul_le_mul_right (setLIntegral_mono' measurableSet_Ico fun v hv =>
      steps_mono hr h1 h2 hle n _ (h2 q hq h0 v hv.1 hv.2)) _

theorem emissions_one (h : List (Option ℝ)) (q : α) :
    overEmissions push kick (fun _ _ => 1) h q = (h.countP Option.isSome : ENNReal) := by
  induction h generalizing q with
  | nil => simp [overEmissions]
  | cons x h ih =>
    cases x with
    | none => simp [overEmissions, ih]
    | some v =>
      simp [overEmissions, ih]
      ring

/-! ## The particles in the list -/

/-- The number of particles that are not photons. -/
noncomputable def massive (ps : List (Particle ℝ)) : Nat := ps.countP fun p => decide (p.mass ≠ 0)

theorem massive_append (a b : List (Particle ℝ)) : massive (a ++ b) = massive a + massive b := List.countP_append

theorem massive_cons (p : Particle ℝ) (a : List (Particle ℝ)) :
    massive (p :: a) = massive a + if p.mass = 0 then 0 else 1 := by
  unfold massive
  rw [List.countP_cons]
  by_cases h : p.mass = 0 <;> simp [h]

theorem massive_new {new : List (Particle ℝ)} (h : ∀ x ∈ new, x.mass = 0) : massive new = 0 := by
  unfold massive
  rw [List.countP_eq_zero]
  intro x hx
  simpa using h x hx

section list

variable {cfg : SimCfg ℝ} {e : EmissionCfg ℝ}

theorem interact_adds {p p' : Particle ℝ} {l l' : PList ℝ} {r r' : Rng ℝ}
    (h : stochasticInteract e p l r = .ok (p', l', r')) :
    p'.mass = p.mass ∧ l'.name = l.name ∧ l'.maxParticles = l.maxParticles ∧
      ∃ new : List (Particle ℝ), l'.items = l.items ++ new ∧ (∀ x ∈ new, x.mass = 0) ∧
        new.length ≤ if p.mass = 0 then 0 else 1 := by
  have none : ∀ q : Particle ℝ, q.mass = p.mass → l' = l → q.mass = p.mass ∧ l'.name = l.name ∧
      l'.maxParticles = l.maxParticles ∧ ∃ new : List (Particle ℝ), l'.items = l.items ++ new ∧ (∀ x ∈ new, x.mass = 0) ∧
        new.length ≤ if p.mass = 0 then 0 else 1 := by
    rintro q hq rfl
    exact ⟨hq, rfl, rfl, [], by simp, by simp, by simp⟩
  rcases stochastic_cases h with ⟨-, rfl, h2, -⟩ | ⟨⟨hm, -⟩, delta, -, ⟨-, h1, h2, -⟩ | ⟨-, chi, u, w, -, -, -, -, h1, h2⟩⟩
  · exact none _ rfl h2
  · exact none _ (by rw [h1]; rfl) h2
  · have hm' : p'.mass = p.mass := by
      rw [h1]
      unfold Particle.initOpticalDepth Particle.updateTrack
      split <;> rfl
    rcases h2 with ⟨h2, -⟩ | ⟨-, -, x, -, h2⟩
    · exact none _ hm' h2
    · have hm0 : p.mass ≠ 0 := by simpa using hm
      rw [if_neg hm0, h2]
      refine ⟨hm', ?_, ?_, _, PList.add_items _ _, ?_, ?_⟩
      · unfold PList.add; split <;> rfl
      · unfold PList.add; split <;> rfl
      · intro x hx
        have := List.mem_of_mem_take hx
        rw [List.mem_singleton] at this
        rw [this]
        simp [Particle.newPhotonE, Particle.new]
      · rw [List.length_take]
        exact min_le_right _ _

theorem visit_adds (hp : cfg.procs = [.stochastic e]) {nm : String} {mx : Nat} {pre post : List (Particle ℝ)}
    {p : Particle ℝ} {r r' : Rng ℝ} {l' : PList ℝ}
    (h : visit cfg pre.length ⟨nm, mx, pre ++ p :: post⟩ r = .ok (l', r')) :
    ∃ (p' : Particle ℝ) (new : List (Particle ℝ)), l' = ⟨nm, mx, (pre ++ [p']) ++ (post ++ new)⟩ ∧ p'.mass = p.mass ∧
      (∀ x ∈ new, x.mass = 0) ∧ new.length ≤ if p.mass = 0 then 0 else 1 := by
  unfold visit at h
  set q := pushParticle cfg.push cfg.field cfg.dt p with hq
  have hm : q.mass = p.mass := (push_identity cfg.push cfg.field cfg.dt p).2.1
  have hget : ∀ z : Particle ℝ, (⟨nm, mx, pre ++ z :: post⟩ : PList ℝ).get pre.length = .ok z := by
    intro z
    rw [PList.get_eq_ok]
    simp
  rw [hget, Res.ok_bind, hp, interactAll, Res.bind_eq_ok] at h
  obtain ⟨⟨l1, r1⟩, h1, h2⟩ := h
  have hset : (⟨nm, mx, pre ++ p :: post⟩ : PList ℝ).set pre.length q = ⟨nm, mx, pre ++ q :: post⟩ := by
    unfold PList.set
    simp
  rw [← hq, hset] at h1
  unfold interactAt at h1
  rw [hget, Res.ok_bind] at h1
  replace h1 : (stochasticInteract e q ⟨nm, mx, pre ++ q :: post⟩ r >>= fun x =>
    Res.ok (x.2.1.set pre.length x.1, x.2.2)) = .ok (l1, r1) := h1
  rw [Res.bind_eq_ok] at h1
  obtain ⟨⟨p', l2, r2⟩, h3, h4⟩ := h1
  obtain ⟨a1, a2, a3, new, a4, a5, a6⟩ := interact_adds h3
  cases h2
  cases h4
  refine ⟨p', new, ?_, a1.trans hm, a5, by rw [← hm]; exact a6⟩
  unfold PList.set
  rw [a2, a3, a4]
  simp

/-- A lepton adds at most one photon to the list when its turn comes. -/
theorem loop_adds (hp : cfg.procs = [.stochastic e]) {fuel : Nat} {nm : String} {mx : Nat} :
    ∀ {pre post : List (Particle ℝ)} {r r' : Rng ℝ} {l' : PList ℝ},
      particleLoop cfg fuel pre.length ⟨nm, mx, pre ++ post⟩ r = .ok (l', r') →
      l'.items.length ≤ pre.length + post.length + massive post ∧ massive l'.items = massive (pre ++ post) := by
  induction fuel with
  | zero =>
    intro pre post r r' l' h
    cases h
    simp
  | succ fuel ih =>
    intro pre post r r' l' h
    rw [particleLoop] at h
    cases post with
    | nil =>
      rw [if_neg (by simp [PList.nPart])] at h
      cases h
      simp
    | cons p post =>
      rw [if_pos (by simp [PList.nPart]), Res.bind_eq_ok] at h
      obtain ⟨⟨l1, r1⟩, h1, h2⟩ := h
      obtain ⟨p', new, rfl, hm, h3, h4⟩ := visit_adds hp h1
      have hlen : (pre ++ [p']).length = pre.length + 1 := by simp
      rw [← hlen] at h2
      obtain ⟨g1, g2⟩ := ih h2
      rw [hlen, List.length_append, massive_append, massive_new h3] at g1
      rw [massive_append, massive_append, massive_append, massive_new h3, massive_cons, hm] at g2
      rw [List.length_cons, massive_cons, massive_append, massive_cons]
      constructor
      · omega
      · rw [g2]
        simp [massive]
        omega

/-- In `n` steps a list gains no more than `n` photons per lepton. -/
theorem steps_add (hp : cfg.procs = [.stochastic e]) {s t : EvState ℝ} {n : Nat} (h : Steps cfg s n t) :
    t.list.items.length ≤ s.list.items.length + n * massive s.list.items ∧
      massive t.list.items = massive s.list.items := by
  induction h with
  | zero => simp
  | @succ m t t' _ _ h3 ih =>
    obtain ⟨ha, -⟩ := timeStep_advance h3
    obtain ⟨g1, g2⟩ := loop_adds (pre := []) (post := t.list.items) hp ha
    rw [List.nil_append] at g2
    rw [ih.2] at g1 g2
    refine ⟨?_, g2⟩
    have := ih.1
    simp only [List.length_nil] at g1
    rw [Nat.succ_mul]
    omega

end list

end Tally

end QED
