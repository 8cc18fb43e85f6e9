import Verif.Lemmas.Quiet
import Verif.Props.Outside
import Verif.Lemmas.F64Stuck

set_option autoImplicit false
set_option exponentiation.threshold 2000

/-!
# C153: leptons that are outside a laser pulse

In double precision. Where the field is zero, a lepton that moves has quantum parameter zero, its optical depth stays as
it is and it is not slowed down. It can radiate when it meets the pulse later, unlike a lepton at rest (C151), and its
photons can not make pairs there if they were outside the pulse before (C152).
-/

namespace QED

open Dbl F64 Rest

/-- C153: with quantum emission nothing happens to a lepton outside the pulse: no number is drawn, its optical depth and
momentum are what they were, and no photon is added. The tables are not looked at. -/
theorem C153_stochastic {e : EmissionCfg F64} {p : Particle F64} (hp : Travelling p) (h : NoField e.field p)
    (hdt : ∃ τ, e.dt.1 = .fin τ ∧ |τ| ≤ 2 ^ 50) (l : PList F64) (r : MCTools.Rng F64) :
    stochasticInteract e p l r = .ok (p, l, r) :=
  quiet_stochastic hp h hdt l r

/-- C153: continuous emission, classical or corrected, may draw numbers but leaves the lepton as it is and adds no
photon. -/
theorem C153_continuous {e : EmissionCfg F64} {c : Bool} {p : Particle F64} (hp : Travelling p) (h : NoField e.field p)
    {l l' : PList F64} {r r' : MCTools.Rng F64} {p' : Particle F64}
    (hi : continuousInteract e c p l r = .ok (p', l', r')) : p' = p ∧ l' = l :=
  quiet_continuous hp h hi

/-- C153: outside a focusing pulse, as far as the program evaluates it, the field is exactly zero. -/
theorem C153_focusing (f : FocusField F64) {p : Particle F64} (h : f.Beyond p.time p.position) : NoField f.getField p := by
  unfold NoField FocusField.getField
  dsimp only
  unfold FocusField.Beyond at h
  rw [if_pos h]
  exact ⟨⟨zero_val, zero_val, zero_val⟩, zero_val, zero_val, zero_val⟩

/-- C153: an event whose leptons are outside the pulse after each of its steps. Whatever the processes, at the end the
particles are those at the start, each moved by the pusher once per step, in the same order: none emitted and none
slowed down, and none has used any of its optical depth. -/
theorem C153_event {cfg : SimCfg F64} {nm : String} {mx : Nat} {ps : List (Particle F64)} (hmx : ps.length ≤ mx)
    {r r' : MCTools.Rng F64} {hists hists' : List (Hist F64)} {n : Nat} {l' : PList F64}
    (h : ∀ p ∈ ps, ∀ k, 1 ≤ k → k ≤ n → Travelling ((pushParticle cfg.push cfg.field cfg.dt)^[k] p) ∧
      ∀ proc ∈ cfg.procs, proc.NoField ((pushParticle cfg.push cfg.field cfg.dt)^[k] p))
    (hev : Event cfg ⟨nm, mx, ps⟩ r hists n l' r' hists') :
    l' = ⟨nm, mx, ps.map (pushParticle cfg.push cfg.field cfg.dt)^[n]⟩ ∧
      ∀ q ∈ l'.items, ∃ p ∈ ps, q = (pushParticle cfg.push cfg.field cfg.dt)^[n] p ∧ q.opticalDepth = p.opticalDepth := by
  obtain ⟨hrun, -⟩ := hev
  have he := quiet_run hrun ps _ rfl hmx h rfl
  refine ⟨he, fun q hq => ?_⟩
  rw [he] at hq
  obtain ⟨p, hp, rfl⟩ := List.mem_map.mp hq
  refine ⟨p, hp, rfl, ?_⟩
  have hd := iterate_depth cfg.push cfg.field cfg.dt n p p.opticalDepth
  exact (congrArg Particle.opticalDepth hd :)

/-- C153: and with quantum emission such an event draws no number, so that the next one starts with the generator as it
was. -/
theorem C153_draws {cfg : SimCfg F64} (hs : ∀ proc ∈ cfg.procs, proc.Sampled) {nm : String} {mx : Nat}
    {ps : List (Particle F64)} (hmx : ps.length ≤ mx) {r r' : MCTools.Rng F64} {hists hists' : List (Hist F64)} {n : Nat}
    {l' : PList F64}
    (h : ∀ p ∈ ps, ∀ k, 1 ≤ k → k ≤ n → Travelling ((pushParticle cfg.push cfg.field cfg.dt)^[k] p) ∧
      ∀ proc ∈ cfg.procs, proc.NoField ((pushParticle cfg.push cfg.field cfg.dt)^[k] p))
    (hev : Event cfg ⟨nm, mx, ps⟩ r hists n l' r' hists') : r' = r := by
  obtain ⟨hrun, -⟩ := hev
  exact quiet_run_sampled hs hrun ps _ rfl hmx h rfl

/-! ## An electron that moves towards a field -/

namespace QuietWitness

open RestWitness

/-- A momentum along x. -/
noncomputable def along : V3 F64 := ⟨lit 1, lit 0, lit 0⟩

/-- An electron that moves along x. -/
noncomputable def electron : Particle F64 := .newLepton (lit 1) (lit (-1)) z along (lit 1) (lit 0) false (lit (1 / 2))

/-- One step of length 1, before the field is switched on. -/
noncomputable def cfg : SimCfg F64 :=
  ⟨lorentzForce, field, lit 1, lit 1, [.stochastic emission, .breitWheeler pairs]⟩

theorem along_at : along.At ![1, 0, 0] := ⟨one_val, zero_val, zero_val⟩

theorem along_len : len ![(1 : ℝ), 0, 0] = 1 := FlightWitness.len_axis zero_le_one

theorem travelling {p : Particle F64} (hk : p.kind ≠ .photon) (hm : p.mass = lit 1) (ha : p.momentum = along)
    (hd : p.opticalDepth = initDepth (lit (1 / 2))) : Travelling p := by
  refine ⟨hk, hm, ⟨![1, 0, 0], ?_, ?_, ?_⟩, ?_⟩
  · rw [ha]; exact along_at
  · rw [along_len]; norm_num
  · rw [along_len]; norm_num
  · rw [hd]
    obtain ⟨x, hx, h0, -⟩ := depth_half
    show ((initDepth (lit (1 / 2)) : F64).1 <. (lit 0 : F64).1) = false
    rw [hx, zero_val]
    simp
    linarith

theorem kind_ne : electron.kind ≠ .photon := by
  show Particle.leptonKind (lit (-1) : F64) ≠ _
  unfold Particle.leptonKind
  split <;> simp

theorem momentum_same : (rk4 lorentzForce field (lit 1) (lit 1) (lit (-1)) (lit 0) z along).2 = along := by
  obtain ⟨h, h1, h2⟩ := half_val
  unfold rk4
  have f1 : ∀ y, field (lit 0) y = (z, z) := off zero_val zero_le_one
  have f2 : ∀ y, field (lit 0 +. lit 1 /. lit 2) y = (z, z) := off (zero_add_at zero_val h1) h2
  have f3 : ∀ y, field (lit 0 +. lit 1) y = (z, z) := off (zero_add_at zero_val one_val) le_rfl
  obtain ⟨s, hs⟩ : ∃ s, (lit 1 /. lit 6 : F64).1 = .fin s :=
    ⟨_, div_at one_val six_val (by norm_num) (below (k := 0) (by norm_num [abs_of_pos]) (by norm_num)) rfl⟩
  obtain ⟨g, v, hg, g0, -, -, -⟩ := Flight.velocity_near along_at (by rw [along_len]; norm_num)
  have hF : lorentzForce (lit 1) (lit (-1)) along z z = z := Flight.no_force along_at Flight.minus_val hg g0
  have ha : along.add z = along := Flight.add_nothing along_at z_at
  simp only [f1, f2, f3, hF, ha, muls_z one_val, divs_z two_val two_ne_zero, add_z, smul_z two_val, smul_z hs]

theorem pushed : ∃ x, pushParticle lorentzForce field (lit 1) electron =
    (electron.updateTrack x along).updateTime (lit 1) := by
  refine ⟨(rk4 lorentzForce field (lit 1) (lit 1) (lit (-1)) (lit 0) z along).1, ?_⟩
  unfold pushParticle
  rw [if_neg (by simp [electron, Particle.newLepton, Particle.new]), if_neg]
  · show (electron.updateTrack (rk4 lorentzForce field (lit 1) (lit 1) (lit (-1)) (lit 0) z along).1
      (rk4 lorentzForce field (lit 1) (lit 1) (lit (-1)) (lit 0) z along).2).updateTime _ = _
    rw [momentum_same]
  · show ¬ ((lit 1 : F64).1 ==. (lit 0 : F64).1) = true
    rw [one_val, zero_val]
    simp

theorem outside : Travelling (pushParticle lorentzForce field (lit 1) electron) ∧
    NoField field (pushParticle lorentzForce field (lit 1) electron) := by
  obtain ⟨x, hx⟩ := pushed
  rw [hx]
  refine ⟨travelling kind_ne rfl rfl rfl, ?_⟩
  unfold NoField
  have : field ((electron.updateTrack x along).updateTime (lit 1)).time
      ((electron.updateTrack x along).updateTime (lit 1)).position = (z, z) :=
    off (t := lit 0 +. lit 1) (zero_add_at zero_val one_val) le_rfl _
  rw [this]
  exact ⟨z_at, z_at⟩

theorem hyp : ∀ p ∈ [electron], ∀ k, 1 ≤ k → k ≤ 1 → Travelling ((pushParticle cfg.push cfg.field cfg.dt)^[k] p) ∧
      ∀ proc ∈ cfg.procs, proc.NoField ((pushParticle cfg.push cfg.field cfg.dt)^[k] p) := by
  intro p hp k h1 h2
  obtain rfl : p = electron := by simpa using hp
  obtain rfl : k = 1 := by omega
  refine ⟨outside.1, fun proc hproc => ?_⟩
  rcases List.mem_cons.mp hproc with rfl | hproc
  · exact ⟨outside.2, 1, one_val, by norm_num⟩
  · obtain rfl : proc = .breitWheeler pairs := by simpa using hproc
    trivial

theorem sampled : ∀ proc ∈ cfg.procs, proc.Sampled := by
  intro proc hproc
  rcases List.mem_cons.mp hproc with rfl | hproc
  · trivial
  · obtain rfl : proc = .breitWheeler pairs := by simpa using hproc
    trivial

end QuietWitness

open QuietWitness in
/-- The hypotheses of `C153_event` and `C153_draws`, and that such events exist. -/
example (r : MCTools.Rng F64) : (∀ proc ∈ cfg.procs, proc.Sampled) ∧
    (∀ p ∈ [electron], ∀ k, 1 ≤ k → k ≤ 1 → Travelling ((pushParticle cfg.push cfg.field cfg.dt)^[k] p) ∧
      ∀ proc ∈ cfg.procs, proc.NoField ((pushParticle cfg.push cfg.field cfg.dt)^[k] p)) ∧
    ∃ l', Event cfg ⟨"e", 10, [electron]⟩ r [] 1 l' r [] := by
  refine ⟨sampled, hyp, ?_⟩
  have ha : advance cfg ⟨"e", 10, [electron]⟩ r =
      .ok (⟨"e", 10, [pushParticle cfg.push cfg.field cfg.dt electron]⟩, r) := by
    unfold advance
    exact quiet_loop_sampled (fuel := 10) sampled r (before := []) (after := [electron]) (by simp)
      (fun p hp => hyp p hp 1 le_rfl le_rfl)
  have hs : timeStep cfg (.init ⟨"e", 10, [electron]⟩ r []) =
      .ok ⟨⟨"e", 10, [pushParticle cfg.push cfg.field cfg.dt electron]⟩, r, lit 0 +. cfg.dt, 0, []⟩ := by
    unfold timeStep histStep
    show (advance cfg ⟨"e", 10, [electron]⟩ r).bind _ = _
    rw [ha]
    rfl
  have lt1 : ((lit 0 : F64) <. cfg.timeEnd) = true := by
    show ((lit 0 : F64).1 <. (lit 1 : F64).1) = true
    rw [zero_val, one_val]; simp
  have lt2 : ((lit 0 +. cfg.dt : F64) <. cfg.timeEnd) = false := by
    show ((lit 0 +. lit 1 : F64).1 <. (lit 1 : F64).1) = false
    rw [zero_add_at zero_val one_val, one_val]; simp
  exact ⟨_, .mk (.step lt1 hs (.done lt2)) rfl⟩

open QuietWitness RestWitness in
/-- The hypotheses of `C153_stochastic` and `C153_continuous`. -/
example : Travelling (pushParticle lorentzForce field (lit 1) QuietWitness.electron) ∧
    NoField emission.field (pushParticle lorentzForce field (lit 1) QuietWitness.electron) ∧
    ∃ τ, emission.dt.1 = .fin τ ∧ |τ| ≤ 2 ^ 50 :=
  ⟨outside.1, outside.2, 1, one_val, by norm_num⟩

open OutsideWitness QuietWitness in
/-- The hypothesis of `C153_focusing`, for an electron at a place the pulse has left. -/
example (push : PushMom F64) (field : Field F64) :
    let q := pushParticle push field (lit 1) after
    let p : Particle F64 := .newLepton (lit 1) (lit (-1)) q.position along (lit 1) q.time false (lit (1 / 2))
    Travelling p ∧ focusing.Beyond p.time p.position :=
  ⟨travelling QuietWitness.kind_ne rfl rfl rfl, beyond push field⟩

end QED
