import Verif.Lemmas.GeantHeap
import Verif.Props.Geant
import Verif.Props.MCTools
import Verif.Props.Geometry

set_option autoImplicit false
set_option linter.unusedSectionVars false

/-!
# Properties C77, C83, C84, C85: the Geant4 processes
-/

namespace QED

open Dbl MCTools G4

/-! ## C77 The emission process frees its particle once -/

theorem acts_inv : ∀ (as : List Act) (e e' : Emitter), EInv e → e.acts as = .ok e' →
    EInv e' ∧ e'.steps = e.steps ∧
      (e'.field = .indeterminate ↔ (e.field = .indeterminate ∧ Act.setField ∉ as)) ∧
      (e'.part = .indeterminate ↔ (e.part = .indeterminate ∧ ∀ n, Act.postStep n ∉ as))
  | [], e, e', h, ha => by cases ha; exact ⟨h, rfl, by simp, by simp⟩
  | a :: as, e, e', h, ha => by
    obtain ⟨e1, h1, h2⟩ := Res.bind_eq_ok.1 ha
    rcases h.act a with ⟨-, -, -, hub⟩ | ⟨-, e2, h3, h4, h5, h6, h7⟩
    · rw [hub] at h1; cases h1
    · obtain rfl : e1 = e2 := Res.ok.inj (h1.symm.trans h3)
      obtain ⟨k1, k2, k3, k4⟩ := acts_inv as e1 e' h4 h2
      refine ⟨k1, k2.trans h5, ?_, ?_⟩
      · rw [k3, h6]
        simp only [List.mem_cons, not_or]
        exact ⟨fun ⟨⟨x, y⟩, z⟩ => ⟨x, fun h => y h.symm, z⟩, fun ⟨x, y, z⟩ => ⟨⟨x, fun h => y h.symm⟩, z⟩⟩
      · rw [k4, h7]
        simp only [List.mem_cons, not_or]
        exact ⟨fun ⟨⟨x, y⟩, z⟩ => ⟨x, fun n => ⟨fun h => y n h.symm, z n⟩⟩,
          fun ⟨x, y⟩ => ⟨⟨x, fun n h => (y n).1 h.symm⟩, fun n => (y n).2⟩⟩

/-- What holds of C77: as long as the process is not destroyed, every call goes through and every internal
particle made by a `PostStepDoIt` is freed by the end of that call, provided that a field has been set before
the first `PostStepDoIt` (or the end time is not positive). Otherwise the first `PostStepDoIt` uses a null
pusher. Missing: the destructor, see `C77_refuted`. -/
theorem C77_calls_partial (steps : Bool) (as : List Act) :
    ((∃ e, (Emitter.new steps).acts as = .ok e) ↔
      (steps = true → ∀ before n after, as = before ++ Act.postStep n :: after → Act.setField ∈ before)) ∧
    ∀ e, (Emitter.new steps).acts as = .ok e → ∀ a, e.part = .is (some a) → a ∉ e.heap.live := by
  constructor
  · have key : ∀ (as : List Act) (e : Emitter), EInv e →
        ((∃ e', e.acts as = .ok e') ↔ (e.steps = true → e.field = .indeterminate →
          ∀ before n after, as = before ++ Act.postStep n :: after → Act.setField ∈ before)) := by
      intro as
      induction as with
      | nil =>
        intro e _
        refine ⟨fun _ _ _ before n after h => ?_, fun _ => ⟨e, rfl⟩⟩
        simp at h
      | cons a as ih =>
        intro e he
        rcases he.act a with ⟨⟨n, rfl⟩, h1, h2, hub⟩ | ⟨hno, e2, h3, h4, h5, h6, -⟩
        · constructor
          · rintro ⟨e', h⟩
            rw [Emitter.acts, hub] at h
            cases h
          · intro h
            have := h h1 h2 [] n as rfl
            simp at this
        · rw [Emitter.acts, h3, Res.ok_bind, ih e2 h4, h5, h6]
          constructor
          · intro h hs hf before n after heq
            rcases before with _ | ⟨b, before⟩
            · simp only [List.nil_append, List.cons.injEq] at heq
              exact absurd ⟨⟨n, heq.1⟩, hs, hf⟩ hno
            · simp only [List.cons_append, List.cons.injEq] at heq
              obtain ⟨rfl, heq⟩ := heq
              by_cases hb : a = .setField
              · simp [hb]
              · exact List.mem_cons_of_mem _ (h hs ⟨hf, hb⟩ before n after heq)
          · intro h hs hf before n after heq
            have := h hs hf.1 (a :: before) n after (by rw [heq]; rfl)
            rcases List.mem_cons.1 this with h' | h'
            · exact absurd h'.symm hf.2
            · exact h'
    rw [key as _ (EInv.new steps)]
    exact ⟨fun h hs => h hs rfl, fun h hs _ => h hs⟩
  · intro e h a ha
    obtain ⟨hi, -⟩ := acts_inv as _ e (EInv.new steps) h
    rcases hi.part with h1 | ⟨b, h1, -, h2⟩
    · rw [ha] at h1; cases h1
    · rw [ha] at h1; cases h1; exact h2

/-- C77 is false, in the worst way: there is no history after which the process can be destroyed. If a field
was set and a `PostStepDoIt` was made, the destructor frees the internal particle a second time; otherwise it
frees a pointer that was never set. -/
theorem C77_refuted (steps : Bool) (as : List Act) (e : Emitter)
    (h : (Emitter.new steps).acts as = .ok e) :
    (Act.setField ∈ as ∧ (∃ n, Act.postStep n ∈ as) → e.destroy = .ub "double free") ∧
    (¬ (Act.setField ∈ as ∧ ∃ n, Act.postStep n ∈ as) →
      e.destroy = .ub "delete of an indeterminate pointer") := by
  obtain ⟨hi, -, hf, hp⟩ := acts_inv as _ e (EInv.new steps) h
  have hf' : e.field = .indeterminate ↔ Act.setField ∉ as := by
    rw [hf]; exact ⟨fun h => h.2, fun h => ⟨rfl, h⟩⟩
  have hp' : e.part = .indeterminate ↔ ∀ n, Act.postStep n ∉ as := by
    rw [hp]; exact ⟨fun h => h.2, fun h => ⟨rfl, h⟩⟩
  unfold Emitter.destroy
  rcases hi.objects with ⟨h1, -, -⟩ | ⟨f, p, q, h1, -, -, h2, -⟩
  · refine ⟨fun hh => absurd hh.1 (hf'.1 h1), fun _ => ?_⟩
    rw [h1]
    rfl
  · have hset : Act.setField ∈ as := by
      by_contra hne
      rw [hf'.2 hne] at h1; cases h1
    have hd : e.field.delete e.heap = .ok { e.heap with live := e.heap.live.erase f } := by
      rw [h1]; simp [Member.delete, Heap.free, h2]
    rw [hd, Res.ok_bind]
    rcases hi.part with h3 | ⟨a, h3, -, h4⟩
    · refine ⟨fun hh => ?_, fun _ => ?_⟩
      · obtain ⟨-, n, hn⟩ := hh
        exact absurd hn (hp'.1 h3 n)
      · rw [h3]
        rfl
    · have hpost : ∃ n, Act.postStep n ∈ as := by
        by_contra hne
        push Not at hne
        rw [hp'.2 hne] at h3; cases h3
      refine ⟨fun _ => ?_, fun hh => absurd ⟨hset, hpost⟩ hh⟩
      rw [h3]
      have : a ∉ e.heap.live.erase f := fun hm => h4 (List.mem_of_mem_erase hm)
      simp [Member.delete, Heap.free, this]

/-- A field, two crossings with photons, one of which Geant4 has already deleted. -/
example : ∃ e, (Emitter.new true).acts [.setField, .meanFreePath true, .postStep 2, .kernelDelete 6,
    .postStep 0] = .ok e ∧ e.handed ≠ [] := by
  refine ⟨_, rfl, ?_⟩
  decide

/-! ## C83 A lepton that nothing happens to keeps its energy -/

/-- The lepton built from a track, over the reals. -/
theorem leptonOf_spec (t : G4.Track ℝ) (u : ℝ) (hd : t.direction.dot t.direction = 1) :
    (leptonOf t u).kind ≠ .photon ∧ (leptonOf t u).mass = t.mass * MeV ∧
      (leptonOf t u).momentum = t.direction.smul (t.kinetic * MeV) ∧ (leptonOf t u).isAlive = true ∧
      (leptonOf t u).opticalDepth = initDepth u := by
  refine ⟨?_, ?_, ?_, rfl, rfl⟩
  · simp only [leptonOf, Particle.newLeptonE, Particle.new, Particle.leptonKind]
    split <;> simp
  · simp only [leptonOf, Particle.newLeptonE, Particle.new, g4Energy_eq, real_mul]
  · simp only [leptonOf, Particle.newLeptonE, Particle.new, g4Energy_eq, real_mul, V3.norm_of_unit hd]

/-- What stays the same in a loop without field. -/
structure Undisturbed (p : Particle ℝ) (s : StepState ℝ) : Prop where
  kind : s.part.kind ≠ .photon
  mass : s.part.mass = p.mass
  momentum : s.part.momentum = p.momentum
  alive : s.part.isAlive = true
  depth : 0 ≤ s.part.opticalDepth
  list : s.list.items = []

theorem stepOnce_free (c : StepCfg ℝ) (p : Particle ℝ) (hm : 0 < p.mass)
    (hf : ∀ (t : ℝ) (x : V3 ℝ), c.emission.field t x = (⟨0, 0, 0⟩, ⟨0, 0, 0⟩)) {s : StepState ℝ}
    (h : Undisturbed p s) : ∃ s', stepOnce c s = .ok s' ∧ Undisturbed p s' ∧ s'.time = s.time + c.dt := by
  obtain ⟨hmom, -, -, -⟩ := C28_free_flight c.emission.field hf c.dt s.part h.alive
    (by rw [h.mass]; exact hm) h.kind 1
  obtain ⟨i1, i2, -, -, -, i6, i7⟩ := push_identity lorentzForce c.emission.field c.dt s.part
  simp only [Function.iterate_one] at hmom
  unfold stepOnce
  generalize pushParticle lorentzForce c.emission.field c.dt s.part = q at *
  dsimp only
  have heta : calculateEta c.emission.field q = 0 := by
    unfold calculateEta
    rw [hf]
    simp [V3.smul, V3.dot, V3.sub, V3.add, V3.cross, V3.mag2]
  unfold stochasticInteract
  have hmass : (q.mass ==. lit 0) = false := by
    rw [i2, h.mass]; simp [hm.ne']
  rw [hmass, i6, h.alive]
  simp only [Bool.not_true, Bool.or_self, Bool.false_eq_true, if_false, heta]
  have hlog : emissionLogh c.emission (0 : ℝ) = .ok (lit 0.7193) := by
    unfold emissionLogh
    rw [if_pos (by simp; norm_num)]
  have hdelta : emissionDelta c.emission.dt (0 : ℝ) (lit 0.7193) q.gamma = 0 := by
    simp [emissionDelta]
  rw [hlog, Res.ok_bind, hdelta, if_neg (by simp [Particle.updateOpticalDepth, i7, h.depth]), Res.ok_bind]
  refine ⟨_, rfl, ⟨?_, ?_, ?_, ?_, ?_, ?_⟩, rfl⟩
  · show q.kind ≠ _; rw [i1]; exact h.kind
  · show q.mass = _; rw [i2, h.mass]
  · show q.momentum = _; rw [hmom, h.momentum]
  · show q.isAlive = _; rw [i6, h.alive]
  · simp [Particle.updateOpticalDepth, i7, h.depth]
  · simp [pushParticleList, h.list]

theorem steps_free (c : StepCfg ℝ) (p : Particle ℝ) (hm : 0 < p.mass)
    (hf : ∀ (t : ℝ) (x : V3 ℝ), c.emission.field t x = (⟨0, 0, 0⟩, ⟨0, 0, 0⟩)) {s s' : StepState ℝ} {n : Nat}
    (hs : G4.Steps c s n s') (h : Undisturbed p s) : Undisturbed p s' := by
  induction hs with
  | done => exact h
  | step _ h1 _ ih =>
    obtain ⟨s1, h2, h3, -⟩ := stepOnce_free c p hm hf h
    exact ih (Res.ok.inj (h2.symm.trans h1) ▸ h3)

theorem steps_exist (c : StepCfg ℝ) (p : Particle ℝ) (hm : 0 < p.mass)
    (hf : ∀ (t : ℝ) (x : V3 ℝ), c.emission.field t x = (⟨0, 0, 0⟩, ⟨0, 0, 0⟩)) :
    ∀ (n : Nat) (s : StepState ℝ), Undisturbed p s → c.tEnd ≤ s.time + n * c.dt →
      ∃ k s', G4.Steps c s k s'
  | 0, s, _, hn => ⟨0, s, .done (by simpa using hn)⟩
  | n + 1, s, h, hn => by
    by_cases ht : s.time < c.tEnd
    · obtain ⟨s1, h1, h2, h3⟩ := stepOnce_free c p hm hf h
      obtain ⟨k, s', h4⟩ := steps_exist c p hm hf n s1 h2 (by rw [h3]; push_cast at hn; linarith)
      exact ⟨k + 1, s', .step (by simpa using ht) h1 h4⟩
    · exact ⟨0, s, .done (by simpa using ht)⟩

theorem start_free (t : G4.Track ℝ) (r : Rng ℝ) (hr : r.Valid) (hd : t.direction.dot t.direction = 1) :
    Undisturbed (leptonOf t r.next.1)
      ⟨leptonOf t r.next.1, PList.new "Photons" PList.defaultMax, r.next.2, lit 0⟩ := by
  obtain ⟨k1, k2, k3, k4, k5⟩ := leptonOf_spec t r.next.1 hd
  refine ⟨k1, rfl, rfl, k4, ?_, rfl⟩
  have hu := hr r.pos
  rw [k5]
  simp only [real_lit, real_le, real_lt, decide_eq_true_eq] at hu
  have h0 : (0:ℝ) ≤ r.next.1 := by simpa [Rng.next] using hu.1
  have h1 : r.next.1 < (1:ℝ) := by simpa [Rng.next] using hu.2
  have := Real.log_nonpos (x := 1 - r.next.1) (by linarith) (by linarith)
  simp only [initDepth, real_lit, real_mul, real_sub, real_log]
  push_cast
  linarith

/-- Without field, for every track, time step and end time: no photon is made, but the kinetic energy
proposed to Geant4 is `√(m² + T²)` instead of `T`. -/
theorem C83_field_free (c : StepCfg ℝ) (t : G4.Track ℝ) (r : Rng ℝ) (hr : r.Valid)
    (hf : ∀ (t : ℝ) (x : V3 ℝ), c.emission.field t x = (⟨0, 0, 0⟩, ⟨0, 0, 0⟩)) (hm : 0 < t.mass)
    (hT : 0 < t.kinetic) (hd : t.direction.dot t.direction = 1) (ch : Change ℝ)
    (h : PostStep c t r ch) :
    ch.energy = Real.sqrt (t.mass ^ 2 + t.kinetic ^ 2) ∧ ch.direction = t.direction ∧
      ch.secondaries = [] := by
  cases h with
  | @mk n s hs =>
  obtain ⟨-, k2, k3, -, -⟩ := leptonOf_spec t r.next.1 hd
  have hM := MeV_pos
  have hfin := steps_free c (leptonOf t r.next.1) (by rw [k2]; positivity) hf hs (start_free t r hr hd)
  have hmass : s.part.mass = t.mass * MeV := hfin.mass.trans k2
  have hmom : s.part.momentum = t.direction.smul (t.kinetic * MeV) := hfin.momentum.trans k3
  have hpos : 0 < t.kinetic * MeV := by positivity
  obtain ⟨e1, e2, -⟩ := C12_lepton s.part hfin.kind (by rw [hmass]; positivity)
  have hlen : len s.part.momentum.toVec = t.kinetic * MeV := by
    rw [hmom, ← mag_eq, V3.mag_smul, V3.mag_of_unit hd, abs_of_pos hpos, mul_one]
  refine ⟨?_, ?_, ?_⟩
  · show s.part.energy /. (Units.unitsSI : Units.UnitsSystem ℝ).g4Energy = _
    rw [g4Energy_eq, real_div]
    symm
    rw [Real.sqrt_eq_iff_mul_self_eq (by positivity) (by positivity)]
    have : s.part.energy ^ 2 = (t.mass ^ 2 + t.kinetic ^ 2) * MeV ^ 2 := by
      rw [e1, hmass, hlen]; ring
    field_simp
    linarith
  · show s.part.direction = _
    unfold Particle.direction
    rw [hmom, V3.norm_smul_pos hd hpos]
  · show s.list.items.map _ = []
    rw [hfin.list]; rfl

/-- C83 is false for every lepton: crossing a region without field always raises its kinetic energy. -/
theorem C83_refuted (c : StepCfg ℝ) (t : G4.Track ℝ) (r : Rng ℝ) (hr : r.Valid)
    (hf : ∀ (t : ℝ) (x : V3 ℝ), c.emission.field t x = (⟨0, 0, 0⟩, ⟨0, 0, 0⟩)) (hm : 0 < t.mass)
    (hT : 0 < t.kinetic) (hd : t.direction.dot t.direction = 1) (ch : Change ℝ)
    (h : PostStep c t r ch) : t.kinetic < ch.energy := by
  rw [(C83_field_free c t r hr hf hm hT hd ch h).1]
  apply Real.lt_sqrt_of_sq_lt
  have := pow_pos hm 2
  linarith

/-- C83, the part that holds: such a lepton keeps its direction and no photon appears. -/
theorem C83_direction_partial (c : StepCfg ℝ) (t : G4.Track ℝ) (r : Rng ℝ) (hr : r.Valid)
    (hf : ∀ (t : ℝ) (x : V3 ℝ), c.emission.field t x = (⟨0, 0, 0⟩, ⟨0, 0, 0⟩)) (hm : 0 < t.mass)
    (hT : 0 < t.kinetic) (hd : t.direction.dot t.direction = 1) (ch : Change ℝ)
    (h : PostStep c t r ch) : ch.direction = t.direction ∧ ch.secondaries = [] :=
  (C83_field_free c t r hr hf hm hT hd ch h).2

/-- The loop ends for every track when the time step is positive: the hypotheses of the theorems above can
always be met. -/
theorem C83_ends (c : StepCfg ℝ) (t : G4.Track ℝ) (r : Rng ℝ) (hr : r.Valid)
    (hf : ∀ (t : ℝ) (x : V3 ℝ), c.emission.field t x = (⟨0, 0, 0⟩, ⟨0, 0, 0⟩)) (hm : 0 < t.mass)
    (hd : t.direction.dot t.direction = 1) (hdt : 0 < c.dt) : ∃ ch, PostStep c t r ch := by
  obtain ⟨n, hn⟩ := exists_nat_ge (c.tEnd / c.dt)
  have hM := MeV_pos
  obtain ⟨k, s, hs⟩ := steps_exist c (leptonOf t r.next.1)
    (by rw [(leptonOf_spec t r.next.1 hd).2.1]; positivity) hf n _ (start_free t r hr hd) (by
      simp only [real_lit]
      rw [div_le_iff₀ hdt] at hn
      push_cast
      linarith)
  exact ⟨_, .mk hs⟩

/-- An electron of 1 GeV. -/
example (c : StepCfg ℝ) (hdt : c.dt = 1)
    (hf : ∀ (t : ℝ) (x : V3 ℝ), c.emission.field t x = (⟨0, 0, 0⟩, ⟨0, 0, 0⟩)) :
    ∃ ch, PostStep c ⟨0.511, -1, 1000, ⟨0, 0, 0⟩, ⟨0, 0, 1⟩⟩ ⟨fun _ => 0, 0⟩ ch ∧ 1000 < ch.energy := by
  have hr : (⟨fun _ => 0, 0⟩ : Rng ℝ).Valid := fun i => by simp
  obtain ⟨ch, h⟩ := C83_ends c ⟨0.511, -1, 1000, ⟨0, 0, 0⟩, ⟨0, 0, 1⟩⟩ ⟨fun _ => 0, 0⟩ hr hf
    (by norm_num) (by simp [V3.dot]) (by rw [hdt]; norm_num)
  exact ⟨ch, h, C83_refuted c _ _ hr hf (by norm_num) (by norm_num) (by simp [V3.dot]) ch h⟩

/-! ## C84 The process happens once per crossing -/

section generic
variable {D : Type} [Dbl D]

/-- The answers of `GetMeanFreePath` to `n` successive steps inside the field, and the switch afterwards:
how often the process is made to happen at once. -/
def insideSteps (inField : D) : Nat → Bool → Nat × Bool
  | 0, b => (0, b)
  | n + 1, b =>
    let (now, b') := meanFreePath inField b
    let (k, b'') := insideSteps inField n b'
    (k + (if now then 1 else 0), b'')

/-- How often the process happens to each of a sequence of tracks that make the given numbers of steps inside
the field, one track after the other. -/
def perTrack (inField : D) : List Nat → Bool → List Nat
  | [], _ => []
  | n :: ns, b => (insideSteps inField n b).1 :: perTrack inField ns (insideSteps inField n b).2

/-- Outside the field the process never happens and the switch stays. -/
theorem C84_outside (inField : D) (h : (inField <. lit 1) = true) (b : Bool) :
    meanFreePath inField b = (false, b) := by
  unfold meanFreePath; rw [if_pos h]

theorem insideSteps_eq (x : D) (hx : (x <. lit 1) = false) : ∀ (n N : Nat),
    insideSteps x n (decide (N % 2 = 1)) =
      ((N + n + 1) / 2 - (N + 1) / 2, decide ((N + n) % 2 = 1))
  | 0, N => by simp [insideSteps]
  | n + 1, N => by
    have ih := insideSteps_eq x hx n (N + 1)
    have hm : meanFreePath x (decide (N % 2 = 1)) = (decide (N % 2 = 0), decide ((N + 1) % 2 = 1)) := by
      unfold meanFreePath
      rw [if_neg (by simp [hx])]
      rcases Nat.mod_two_eq_zero_or_one N with h | h
      · have : (N + 1) % 2 = 1 := by omega
        simp [h, this]
      · have : (N + 1) % 2 = 0 := by omega
        simp [h, this]
    rw [insideSteps, hm]
    dsimp only
    rw [ih]
    refine Prod.ext ?_ ?_
    · rcases Nat.mod_two_eq_zero_or_one N with h | h
      · simp only [h, decide_true, if_true]; omega
      · simp only [h]; simp; omega
    · simp only; congr 1; rw [show N + 1 + n = N + (n + 1) by omega]

/-- C84 exactly: every track is processed exactly once if and only if, for every `k`, the first `k` tracks
together make `2k - 1` or `2k` steps inside the field. -/
theorem C84_once_iff_partial (x : D) (hx : (x <. lit 1) = false) (steps : List Nat) :
    (∀ k ∈ perTrack x steps false, k = 1) ↔
      ∀ k, 1 ≤ k → k ≤ steps.length → (steps.take k).sum = 2 * k - 1 ∨ (steps.take k).sum = 2 * k := by
  have key : ∀ (steps : List Nat) (N j : Nat), (N + 1) / 2 = j →
      ((∀ k ∈ perTrack x steps (decide (N % 2 = 1)), k = 1) ↔
        ∀ k, 1 ≤ k → k ≤ steps.length → (N + (steps.take k).sum + 1) / 2 = j + k) := by
    intro steps
    induction steps with
    | nil => intro N j _; simp [perTrack]; intro k h1 h2; omega
    | cons n ns ih =>
      intro N j hj
      rw [perTrack, insideSteps_eq x hx]
      simp only [List.mem_cons, forall_eq_or_imp]
      constructor
      · rintro ⟨h1, h2⟩ k hk1 hk2
        have h1' : (N + n + 1) / 2 = j + 1 := by omega
        rw [ih (N + n) (j + 1) h1'] at h2
        rcases k with _ | _ | k
        · omega
        · simp; omega
        · have := h2 (k + 1) (by omega) (by simpa using hk2)
          rw [List.take_succ_cons, List.sum_cons]
          rw [show N + (n + (ns.take (k + 1)).sum) = N + n + (ns.take (k + 1)).sum by omega]
          omega
      · intro h
        have h1 := h 1 (by omega) (by simp)
        simp at h1
        have h1' : (N + n + 1) / 2 = j + 1 := by omega
        refine ⟨by omega, ?_⟩
        rw [ih (N + n) (j + 1) h1']
        intro k hk1 hk2
        have := h (k + 1) (by omega) (by simpa using hk2)
        rw [List.take_succ_cons, List.sum_cons] at this
        rw [show N + (n + (ns.take k).sum) = N + n + (ns.take k).sum by omega] at this
        omega
  have := key steps 0 0 rfl
  simp only [Nat.zero_mod, zero_ne_one, decide_false, zero_add] at this
  rw [this]
  refine forall_congr' fun k => forall_congr' fun h1 => forall_congr' fun h2 => ?_
  omega

/-- What holds of C84: if every track makes exactly two steps inside the field, each is processed once. -/
theorem C84_two_steps_partial (x : D) (hx : (x <. lit 1) = false) (n : Nat) :
    perTrack x (List.replicate n 2) false = List.replicate n 1 := by
  induction n with
  | zero => rfl
  | succ n ih =>
    rw [List.replicate_succ, perTrack]
    have := insideSteps_eq x hx 2 0
    simp only [Nat.zero_mod, zero_ne_one, decide_false] at this
    rw [this]
    simp only [List.replicate_succ, List.cons.injEq]
    exact ⟨by norm_num, by simpa using ih⟩

/-- C84 is false: of two tracks that make one step each the second is not processed at all, and a track
that makes three steps is processed twice. -/
theorem C84_refuted (x : D) (hx : (x <. lit 1) = false) :
    perTrack x [1, 1] false = [1, 0] ∧ perTrack x [3] false = [2] := by
  constructor <;> simp [perTrack, insideSteps, meanFreePath, hx]

end generic

example : perTrack (1 : ℝ) [1, 2, 2] false = [1, 1, 1] := by
  simp [perTrack, insideSteps, meanFreePath]

/-! ## C85 The surrogate's photons -/

section surrogate
variable {D : Type} [Dbl D]

theorem cumul_len : ∀ (ws : List D) (a : D), (cumul a ws).length = ws.length
  | [], _ => rfl
  | w :: ws, a => by simp [cumul, cumul_len ws]

theorem randDiscrete_lt {ws : List D} {u : D} {i : Nat} (h : randDiscrete ws u = .ok i) :
    i < ws.length := by
  unfold randDiscrete at h
  split at h
  · cases h
  · dsimp only at h
    split at h
    · cases h
      split
      · next k hk =>
        have := (List.findIdx?_eq_some_iff_findIdx_eq.1 hk).1
        rw [cumul_len] at this
        simpa using this
      · simp
    all_goals cases h

/-- The mixture has at least `n` components. -/
def Mixture.Has (m : Mixture D) (n : Nat) : Prop :=
  n ≤ m.mean.length ∧ n ≤ m.sigma.length ∧ n ≤ m.skew.length

theorem sample_ok {m : Mixture D} {n i : Nat} (h : Mixture.Has m n) (hi : i < n)
    (f : V3 D → V3 D → V3 D → V3 D) : ∃ v, m.sample f i = .ok v := by
  obtain ⟨h1, h2, h3⟩ := h
  unfold Mixture.sample
  rw [rd_ok (by omega), Res.ok_bind, rd_ok (by omega), Res.ok_bind, rd_ok (by omega), Res.ok_bind]
  exact ⟨_, rfl⟩

theorem tfPhotons_ok (elec phot : Mixture D) (pp e : V3 D) (h : Mixture.Has phot elec.frac.length) :
    ∀ ds : List (D × (V3 D → V3 D → V3 D → V3 D)),
      (∀ d ∈ ds, ∃ i, randDiscrete elec.frac d.1 = .ok i) → ∃ ps, tfPhotons elec phot pp e ds = .ok ps
  | [], _ => ⟨_, rfl⟩
  | (u, f) :: ds, hu => by
    obtain ⟨i, hi⟩ := hu _ List.mem_cons_self
    obtain ⟨v, hv⟩ := sample_ok h (randDiscrete_lt hi) f
    obtain ⟨ps, hps⟩ := tfPhotons_ok elec phot pp e h ds fun d hd => hu d (List.mem_cons_of_mem _ hd)
    unfold tfPhotons
    dsimp only at hi
    rw [hi, Res.ok_bind, hv, Res.ok_bind, hps, Res.ok_bind]
    exact ⟨_, rfl⟩

theorem tfPhotons_irrelevant (elec phot phot' : Mixture D) (pp e : V3 D)
    (h : Mixture.Has phot elec.frac.length) (h' : Mixture.Has phot' elec.frac.length) :
    ∀ ds, tfPhotons elec phot pp e ds = tfPhotons elec phot' pp e ds
  | [] => rfl
  | (u, f) :: ds => by
    unfold tfPhotons
    rw [tfPhotons_irrelevant elec phot phot' pp e h h' ds]
    rcases hr : randDiscrete elec.frac u with i | c | w | w
    · have hi := randDiscrete_lt hr
      obtain ⟨v, hv⟩ := sample_ok h hi f
      obtain ⟨v', hv'⟩ := sample_ok h' hi f
      rw [Res.ok_bind, Res.ok_bind, hv, hv', Res.ok_bind, Res.ok_bind]
    all_goals rfl

/-- C85 is false: the photon model has no influence on the photons. Whatever two photon models predict, as
long as they have as many components as the electron model, the outcome is the same. -/
theorem C85_refuted (elec phot phot' : Mixture D) (ep pp : V3 D) (u : D)
    (f : V3 D → V3 D → V3 D → V3 D) (ds : List (D × (V3 D → V3 D → V3 D → V3 D)))
    (h : Mixture.Has phot elec.frac.length) (h' : Mixture.Has phot' elec.frac.length) :
    tfPostStep elec phot ep pp u f ds = tfPostStep elec phot' ep pp u f ds := by
  unfold tfPostStep
  simp only [tfPhotons_irrelevant elec phot phot' pp _ h h' ds]

/-- All photons of a crossing are copies of each other. -/
theorem C85_copies (elec phot : Mixture D) (ep pp : V3 D) (u : D)
    (f : V3 D → V3 D → V3 D → V3 D) (ds : List (D × (V3 D → V3 D → V3 D → V3 D))) (ch : Change D)
    (h : tfPostStep elec phot ep pp u f ds = .ok ch) :
    ∃ e : V3 D, ch.direction = G4.unit (scale e ep) ∧
      ch.secondaries = List.replicate ds.length
        ((scale e pp).mag2 /. (Units.unitsSI : Units.UnitsSystem D).g4Energy, G4.unit (scale e pp)) := by
  have key : ∀ (e : V3 D) (ds : List (D × (V3 D → V3 D → V3 D → V3 D))) (ps : List (D × V3 D)),
      tfPhotons elec phot pp e ds = .ok ps →
      ps = List.replicate ds.length
        ((scale e pp).mag2 /. (Units.unitsSI : Units.UnitsSystem D).g4Energy, G4.unit (scale e pp)) := by
    intro e ds
    induction ds with
    | nil => intro ps h; cases h; rfl
    | cons d ds ih =>
      intro ps h
      obtain ⟨u, f⟩ := d
      obtain ⟨_, _, h⟩ := Res.bind_eq_ok.1 h
      obtain ⟨_, _, h⟩ := Res.bind_eq_ok.1 h
      obtain ⟨qs, h1, h⟩ := Res.bind_eq_ok.1 h
      cases h
      rw [ih qs h1, List.length_cons, List.replicate_succ]
  unfold tfPostStep at h
  obtain ⟨_, _, h⟩ := Res.bind_eq_ok.1 h
  obtain ⟨e, _, h⟩ := Res.bind_eq_ok.1 h
  obtain ⟨ps, h1, h⟩ := Res.bind_eq_ok.1 h
  cases h
  exact ⟨e, rfl, key e ds ps h1⟩

end surrogate

theorem unit_along {p : V3 ℝ} (h : p.toVec ≠ 0) : IsUnitAlong (G4.unit p).toVec p.toVec := by
  have hm : (0 : ℝ) < p.mag2 := by
    by_contra hn
    apply h
    simp only [V3.mag2, V3.dot, real_add, real_mul, not_lt] at hn
    have h1 : p.x = 0 := by nlinarith [mul_self_nonneg p.x, mul_self_nonneg p.y, mul_self_nonneg p.z]
    have h2 : p.y = 0 := by nlinarith [mul_self_nonneg p.x, mul_self_nonneg p.y, mul_self_nonneg p.z]
    have h3 : p.z = 0 := by nlinarith [mul_self_nonneg p.x, mul_self_nonneg p.y, mul_self_nonneg p.z]
    simp [V3.toVec, h1, h2, h3]
  have e : G4.unit p = p.norm := by
    unfold G4.unit V3.norm
    rw [if_pos (by simpa using hm)]
    simp only [V3.smul, V3.divs, V3.mag, V3.mag2, real_mul, real_div, real_sqrt, real_lit, Rat.cast_one, one_div]
    congr 1 <;> rw [mul_comm, div_eq_mul_inv]
  rw [e]
  exact C01_norm_is_unit p h

theorem unit_zero {p : V3 ℝ} (h : p.toVec = 0) : (G4.unit p).toVec = 0 := by
  have hm : p.mag2 = 0 := by rw [mag2_eq, h]; simp [len]
  unfold G4.unit
  rw [if_neg (by simp [hm])]
  exact h

/-- Nor is a photon's energy the magnitude of its momentum: it is the square, so the two agree only for
photons of energy `m c²` (and for none at all). -/
theorem C85_energy_iff_partial (elec phot : Mixture ℝ) (ep pp : V3 ℝ) (u : ℝ)
    (f : V3 ℝ → V3 ℝ → V3 ℝ → V3 ℝ) (ds : List (ℝ × (V3 ℝ → V3 ℝ → V3 ℝ → V3 ℝ))) (ch : Change ℝ)
    (h : tfPostStep elec phot ep pp u f ds = .ok ch) (hne : ds ≠ []) :
    ∃ p : V3 ℝ, (∀ x ∈ ch.secondaries, x.1 * MeV = len p.toVec ^ 2 ∧
        (p.toVec ≠ 0 → IsUnitAlong x.2.toVec p.toVec) ∧ (p.toVec = 0 → x.2.toVec = 0)) ∧
      ((∀ x ∈ ch.secondaries, x.1 * MeV = len p.toVec) ↔ len p.toVec = 0 ∨ len p.toVec = 1) := by
  obtain ⟨e, -, hs⟩ := C85_copies elec phot ep pp u f ds ch h
  refine ⟨scale e pp, ?_, ?_⟩
  · intro x hx
    rw [hs] at hx
    obtain ⟨-, rfl⟩ := List.mem_replicate.1 hx
    refine ⟨?_, unit_along, unit_zero⟩
    simp only [g4Energy_eq, real_div]
    rw [div_mul_cancel₀ _ MeV_pos.ne', mag2_eq]
  · have hlen : ds.length ≠ 0 := fun h => hne (List.length_eq_zero_iff.1 h)
    have : (∀ x ∈ ch.secondaries, x.1 * MeV = len (scale e pp).toVec) ↔
        len (scale e pp).toVec ^ 2 = len (scale e pp).toVec := by
      rw [hs]
      simp only [List.mem_replicate, ne_eq, hlen, not_false_eq_true, true_and, forall_eq, g4Energy_eq,
        real_div]
      rw [div_mul_cancel₀ _ MeV_pos.ne', mag2_eq]
    rw [this, sq]
    constructor
    · intro h
      by_cases h0 : len (scale e pp).toVec = 0
      · exact .inl h0
      · exact .inr (mul_right_cancel₀ h0 (by rw [h, one_mul]))
    · rintro (h | h) <;> rw [h] <;> norm_num

/-- What holds of C85: with usable electron fractions and a component for each of them in both models, every
crossing gives one photon per draw. -/
theorem C85_count_partial (elec phot : Mixture ℝ) (ep pp : V3 ℝ) (u : ℝ) (hw : IsWeights elec.frac)
    (f : V3 ℝ → V3 ℝ → V3 ℝ → V3 ℝ) (ds : List (ℝ × (V3 ℝ → V3 ℝ → V3 ℝ → V3 ℝ)))
    (hu : 0 ≤ u ∧ u < 1) (hds : ∀ d ∈ ds, 0 ≤ d.1 ∧ d.1 < 1)
    (he : Mixture.Has elec elec.frac.length) (hp : Mixture.Has phot elec.frac.length) :
    ∃ ch, tfPostStep elec phot ep pp u f ds = .ok ch ∧ ch.secondaries.length = ds.length := by
  obtain ⟨i, hi, hr⟩ := (C10_slices_partial hw hu.1 hu.2).1
  obtain ⟨e, hv⟩ := sample_ok he hi f
  obtain ⟨ps, hps⟩ := tfPhotons_ok elec phot pp e hp ds fun d hd => by
    obtain ⟨j, -, hj⟩ := (C10_slices_partial hw (hds d hd).1 (hds d hd).2).1
    exact ⟨j, hj⟩
  have hok : ∃ ch, tfPostStep elec phot ep pp u f ds = .ok ch := by
    unfold tfPostStep
    rw [hr, Res.ok_bind, hv, Res.ok_bind, hps, Res.ok_bind]
    exact ⟨_, rfl⟩
  obtain ⟨ch, h⟩ := hok
  obtain ⟨_, -, hs⟩ := C85_copies elec phot ep pp u f ds ch h
  exact ⟨ch, h, by rw [hs, List.length_replicate]⟩

/-- The photon's component is drawn from the electron's fractions, so a photon model with fewer components
is read out of range. -/
theorem C85_out_of_range (elec phot : Mixture ℝ) (ep pp : V3 ℝ) (u v : ℝ) (hw : IsWeights elec.frac)
    (f g : V3 ℝ → V3 ℝ → V3 ℝ → V3 ℝ) (ds : List (ℝ × (V3 ℝ → V3 ℝ → V3 ℝ → V3 ℝ)))
    (hu : 0 ≤ u ∧ u < 1) (he : Mixture.Has elec elec.frac.length) (h2 : 2 ≤ elec.frac.length)
    (hv : InSlice elec.frac v 1) (hv0 : 0 ≤ v) (hv1 : v < 1) (hp : phot.mean.length = 1) :
    ∃ w, tfPostStep elec phot ep pp u f ((v, g) :: ds) = .ub w := by
  obtain ⟨i, hi, hr⟩ := (C10_slices_partial hw hu.1 hu.2).1
  obtain ⟨e, hs⟩ := sample_ok he hi f
  have hj := ((C10_slices_partial hw hv0 hv1).2.2.1 h2).2 (.inr hv)
  unfold tfPostStep tfPhotons Mixture.sample
  have hs' := hs
  unfold Mixture.sample at hs'
  rw [hr, Res.ok_bind, hs', Res.ok_bind, hj, Res.ok_bind, rd_ub (by omega)]
  exact ⟨_, rfl⟩

/-- Two components, three photons. -/
example : ∃ elec phot : Mixture ℝ, IsWeights elec.frac ∧ Mixture.Has elec elec.frac.length ∧
    Mixture.Has phot elec.frac.length ∧ elec.frac.length = 2 ∧ InSlice elec.frac (1 / 2) 1 :=
  ⟨⟨[1, 1], [⟨0, 0, 0⟩, ⟨1, 1, 1⟩], [⟨0, 0, 0⟩, ⟨1, 1, 1⟩], [⟨0, 0, 0⟩, ⟨1, 1, 1⟩]⟩,
    ⟨[1], [⟨0, 0, 0⟩, ⟨1, 1, 1⟩], [⟨0, 0, 0⟩, ⟨1, 1, 1⟩], [⟨0, 0, 0⟩, ⟨1, 1, 1⟩]⟩,
    ⟨by simp, by norm_num⟩, by simp [Mixture.Has], by simp [Mixture.Has], rfl, by
      norm_num [InSlice]⟩

/-- A surrogate for photons with fewer components than that for electrons. -/
example : ∃ elec phot : Mixture ℝ, IsWeights elec.frac ∧ Mixture.Has elec elec.frac.length ∧
    2 ≤ elec.frac.length ∧ InSlice elec.frac (1 / 2) 1 ∧ phot.mean.length = 1 :=
  ⟨⟨[1, 1], [⟨0, 0, 0⟩, ⟨1, 1, 1⟩], [⟨0, 0, 0⟩, ⟨1, 1, 1⟩], [⟨0, 0, 0⟩, ⟨1, 1, 1⟩]⟩,
    ⟨[1], [⟨0, 0, 0⟩], [⟨0, 0, 0⟩], [⟨0, 0, 0⟩]⟩,
    ⟨by simp, by norm_num⟩, by simp [Mixture.Has], by simp, by norm_num [InSlice], rfl⟩

end QED
