import Verif.Lemmas.NearPlane
import Verif.Lemmas.F64Witness
import Verif.Lemmas.NearTrue

set_option autoImplicit false
set_option exponentiation.threshold 2000

/-!
# Property C144: the trajectory in double precision follows that of real numbers
-/

namespace QED

open Dbl F64

/-- C144: an electron or a positron moved in double precision by the Lorentz pusher stays beside the one moved by the
same scheme with real numbers. `F` bounds the coordinates of the field, `Λ` its change per length and time, `κ` the
error with which the field is computed, `G` and `Γ` the Lorentz factor. The time and the place differ by no more than
`k exp (k L τ) ε` after `k` steps and the momentum by no more than `F` times that, as long as this is small. -/
theorem C144_run {g' : Field F64} {g : Field ℝ} {dt : F64} {p' : Particle F64} {p : Particle ℝ}
    {τ X F Λ κ G Γ : ℝ} {n : ℕ} (start : p'.Beside p 0 0) (hd : dt.1 = .fin τ) (tame : Tame F τ G Γ X)
    (place : Bounded p.position (X - (n + 1) * τ)) (time : |p.time| + (n + 1) * τ ≤ X)
    (hF : ∀ s y, Bounded (g s y).1 F ∧ Bounded (g s y).2 F) (hs : g.Slowly Λ) (hΛ : 0 ≤ Λ)
    (hg : g'.Follows g (2 * X) (2 / 2 ^ 53 * X + 40 * (1 / 2 ^ 53 + τ * κ / G) * τ) κ)
    (hκ : 0 ≤ κ) (hκF : 100000 * κ ≤ F)
    (hγ : ∀ k ≤ n, G ≤ gam ((pushParticle lorentzForce g τ)^[k] p).momentum ∧
      gam ((pushParticle lorentzForce g τ)^[k] p).momentum ≤ Γ)
    {ε L : ℝ} (hε : ε = errorPerStep F τ G Γ X κ) (hL : L = 3 * Λ / F + 10 * F / G)
    (small : 100 * errorAfter ε L τ n ≤ X) (small' : 100 * (F * errorAfter ε L τ n) ≤ G) :
    ∀ k ≤ n, ((pushParticle lorentzForce g' dt)^[k] p').Beside ((pushParticle lorentzForce g τ)^[k] p)
      (errorAfter ε L τ k) (F * errorAfter ε L τ k) := by
  have u : (2 : ℝ) ^ 53 = 9007199254740992 := by norm_num
  unfold errorPerStep at hε
  rw [u] at hε hg
  exact Near.run start hd place time hF hs hΛ hg hκ hκF tame.resolved tame.slow hγ tame.field tame.step tame.fast
    tame.far hε hL small small'

/-- C144, the Lorentz factor: with real numbers a step changes it by no more than `6 F τ`, so it stays within the range
that `C144_run` asks for. -/
theorem C144_gamma {g : Field ℝ} {p : Particle ℝ} {τ F : ℝ} (ha : p.isAlive = true) (hm : p.mass = 1)
    (hc : |p.charge| ≤ 1) (hτ : 0 ≤ τ) (hF : ∀ s y, Bounded (g s y).1 F ∧ Bounded (g s y).2 F) (k : ℕ) :
    |gam ((pushParticle lorentzForce g τ)^[k] p).momentum - gam p.momentum| ≤ 6 * (k * (F * τ)) := by
  suffices h : ((pushParticle lorentzForce g τ)^[k] p).isAlive = true ∧
      ((pushParticle lorentzForce g τ)^[k] p).mass = 1 ∧ ((pushParticle lorentzForce g τ)^[k] p).charge = p.charge ∧
      |gam ((pushParticle lorentzForce g τ)^[k] p).momentum - gam p.momentum| ≤ 6 * (k * (F * τ)) from h.2.2.2
  induction k with
  | zero => exact ⟨ha, hm, rfl, by simp⟩
  | succ k ih =>
    obtain ⟨a, b, c, d⟩ := ih
    rw [Function.iterate_succ_apply']
    obtain ⟨a', b', c', -, -, e'⟩ := Near.push_lepton (push := lorentzForce) (field := g) (dt := τ) a (by rw [b]; simp)
    refine ⟨a', b'.trans b, c'.trans c, ?_⟩
    rw [e', b, c]
    have m := Near.real_kick (t := ((pushParticle lorentzForce g τ)^[k] p).time)
      (x := ((pushParticle lorentzForce g τ)^[k] p).position) (p := ((pushParticle lorentzForce g τ)^[k] p).momentum)
      hτ hc hF
    have q := Near.gam_close m.1 m.2.1 m.2.2
    refine (abs_sub_le _ (gam ((pushParticle lorentzForce g τ)^[k] p).momentum) _).trans ?_
    push_cast
    linarith

/-- C144 in a constant field: the field is exact, and the errors grow like `exp (10 F T / γ)`. -/
theorem C144_static {e' b' : V3 F64} {e b : V3 ℝ} {dt : F64} {p' : Particle F64} {p : Particle ℝ} {τ X F G Γ : ℝ}
    {n : ℕ} (start : p'.Beside p 0 0) (hd : dt.1 = .fin τ) (tame : Tame F τ G Γ X)
    (place : Bounded p.position (X - (n + 1) * τ)) (time : |p.time| + (n + 1) * τ ≤ X)
    (he : e'.Close e 0) (hb : b'.Close b 0) (hE : Bounded e F) (hB : Bounded b F)
    (hG : G ≤ 1 ∨ G + 6 * (n * (F * τ)) ≤ gam p.momentum) (hΓ : gam p.momentum + 6 * (n * (F * τ)) ≤ Γ) {ε : ℝ}
    (hε : ε = errorPerStep F τ G Γ X 0) (small : 100 * errorAfter ε (10 * F / G) τ n ≤ X)
    (small' : 100 * (F * errorAfter ε (10 * F / G) τ n) ≤ G) :
    ∀ k ≤ n, ((pushParticle lorentzForce (staticField e' b') dt)^[k] p').Beside
      ((pushParticle lorentzForce (staticField e b) τ)^[k] p)
      (errorAfter ε (10 * F / G) τ k) (F * errorAfter ε (10 * F / G) τ k) := by
  have τ0 : 0 < τ := lt_of_lt_of_le (by positivity) tame.step.1
  have F0 : 0 < F := lt_of_lt_of_le (by positivity) tame.field.1
  refine C144_run (Λ := 0) start hd tame place time (fun _ _ => ⟨hE, hB⟩) ?_ le_rfl ?_ le_rfl (by linarith) ?_ hε
    (by simp) small small'
  · intro s t d x y _ _
    have z : ∀ v : V3 ℝ, Bounded (v.sub v) (0 * d) := by
      intro v
      rw [zero_mul]
      refine ⟨?_, ?_, ?_⟩
      · show |v.x - v.x| ≤ 0
        simp
      · show |v.y - v.y| ≤ 0
        simp
      · show |v.z - v.z| ≤ 0
        simp
    exact ⟨z e, z b⟩
  · intro t' x' t x _ _ _ _
    exact ⟨he, hb⟩
  · intro k hk
    have hc : |p.charge| ≤ 1 := by
      rcases start.charge with h | h <;> rw [h.2] <;> norm_num
    have h := abs_le.mp (C144_gamma (g := staticField e b) start.alive.2 start.mass.2 hc τ0.le
      (fun _ _ => ⟨hE, hB⟩) k)
    have kn : (k : ℝ) * (F * τ) ≤ n * (F * τ) :=
      mul_le_mul_of_nonneg_right (by exact_mod_cast hk) (by positivity)
    refine ⟨?_, by linarith⟩
    rcases hG with hG | hG
    · exact hG.trans (Near.one_le_gam _)
    · linarith

/-- C144 in a plane wave of amplitude up to `A` and wave number up to `K`, when the steps resolve the period: the error
of the computed field is proportional to the phase, and the errors grow like `exp ((12 K + 20 A / γ) T)`. -/
theorem C144_plane {f' : PlaneField F64} {f : PlaneField ℝ} {dt : F64} {p' : Particle F64} {p : Particle ℝ}
    {τ X A K G Γ : ℝ} {n : ℕ} (start : p'.Beside p 0 0) (hd : dt.1 = .fin τ) (tame : Tame (2 * A) τ G Γ X)
    (place : Bounded p.position (X - (n + 1) * τ)) (time : |p.time| + (n + 1) * τ ≤ X)
    (same : f'.Same f) (hr : f.rotation.Unit) (hu : f.rotationInv.Unit) (hA : |f.maxE| ≤ A) (hK : |f.waveNum| ≤ K)
    (mK : (1 / 2) ^ 190 ≤ K ∧ K ≤ 2 ^ 190) (resolved : 100 * (K * τ) ≤ 1) (phase : K * X ≤ 10000000)
    (one : 1 ≤ G)
    (hG : G = 1 ∨ G + 12 * (n * (A * τ)) ≤ gam p.momentum) (hΓ : gam p.momentum + 12 * (n * (A * τ)) ≤ Γ) {ε κ L : ℝ}
    (hκ : κ = A * (300 * (K * X) + 60) / 2 ^ 53) (hL : L = 12 * K + 20 * A / G)
    (hε : ε = errorPerStep (2 * A) τ G Γ X κ) (small : 100 * errorAfter ε L τ n ≤ X)
    (small' : 100 * (2 * A * errorAfter ε L τ n) ≤ G) :
    ∀ k ≤ n, ((pushParticle lorentzForce f'.getField dt)^[k] p').Beside
      ((pushParticle lorentzForce f.getField τ)^[k] p) (errorAfter ε L τ k) (2 * A * errorAfter ε L τ k) := by
  have u : (2 : ℝ) ^ 53 = 9007199254740992 := by norm_num
  have τ0 : 0 < τ := lt_of_lt_of_le (by positivity) tame.step.1
  have A0 : 0 < A := by
    have : 0 < 2 * A := lt_of_lt_of_le (by positivity) tame.field.1
    linarith
  have K0 : 0 < K := lt_of_lt_of_le (by positivity) mK.1
  have X0 : 0 < X := by
    have : 0 < ((n : ℝ) + 1) * τ := by positivity
    linarith [abs_nonneg p.time]
  have τX : τ ≤ X := by
    have : 0 ≤ (n : ℝ) * τ := by positivity
    linarith [abs_nonneg p.time]
  have G0 := tame.slow
  have bound : ∀ s y, Bounded (f.getField s y).1 (2 * A) ∧ Bounded (f.getField s y).2 (2 * A) := by
    intro s y
    have h := Near.plane_bounded hu s y
    exact ⟨Near.bounded_weaken h.1 (by linarith), Near.bounded_weaken h.2 (by linarith)⟩
  have sl : Field.Slowly f.getField (8 * A * K) := by
    intro s t d x y ht hx
    have h := Near.plane_slowly hr hu s t d x y ht hx
    have d0 : 0 ≤ d := (abs_nonneg _).trans ht
    have h1 : |f.maxE| * |f.waveNum| ≤ A * K := mul_le_mul hA hK (abs_nonneg _) A0.le
    have h2 : 8 * |f.maxE| * |f.waveNum| * d ≤ 8 * A * K * d := mul_le_mul_of_nonneg_right (by linarith) d0
    exact ⟨Near.bounded_weaken h.1 h2, Near.bounded_weaken h.2 h2⟩
  rw [u] at hκ
  have KX : 0 < K * X := mul_pos K0 X0
  have κ0 : 0 ≤ κ := by rw [hκ]; positivity
  have κA : κ ≤ A * (1 / 200000) := by
    rw [hκ, div_le_iff₀ (by norm_num)]
    have := mul_le_mul_of_nonneg_left phase A0.le
    linarith
  have Aτ : 32 * (A * τ) ≤ 1 := by
    have := tame.resolved
    linarith
  -- the tolerance
  have back : τ * κ / G * τ ≤ κ * τ * τ := by
    have : τ * κ / G ≤ τ * κ := div_le_self (by positivity) one
    have := mul_le_mul_of_nonneg_right this τ0.le
    linarith
  have κτ : κ * τ * τ ≤ 1 / 6400000 * τ := by
    refine mul_le_mul_of_nonneg_right ?_ τ0.le
    have := mul_le_mul_of_nonneg_right κA τ0.le
    linarith
  have κG : 0 ≤ τ * κ / G := by positivity
  generalize hδ : 2 / (2 : ℝ) ^ 53 * X + 40 * (1 / 2 ^ 53 + τ * κ / G) * τ = δ
  rw [u] at hδ
  have hδ' : δ ≤ 2 / 9007199254740992 * X + 40 / 9007199254740992 * τ + 40 * (κ * τ * τ) := by
    rw [← hδ]
    linarith
  have δ0 : 0 ≤ δ := by rw [← hδ]; positivity
  have tolX : 2000 * δ ≤ 2 * X := by linarith
  have Kτ0 : 0 < K * τ := mul_pos K0 τ0
  have Kδ : K * δ ≤ 2 / 9007199254740992 * (K * X) + 40 / 9007199254740992 * (K * τ) + 40 * (K * (κ * τ * τ)) := by
    have := mul_le_mul_of_nonneg_left hδ' K0.le
    linarith
  have Kκ : K * (κ * τ * τ) ≤ 1 / 100 * (κ * τ) := by
    have e : K * (κ * τ * τ) = K * τ * (κ * τ) := by ring
    rw [e]
    exact mul_le_mul_of_nonneg_right (by linarith) (by positivity)
  have Kκ' : K * (κ * τ * τ) ≤ 1 / 640000000 := by
    have := mul_le_mul_of_nonneg_right κA τ0.le
    linarith
  have mid : ∀ {a : ℝ}, (1 / 2) ^ 190 ≤ a ∧ a ≤ 2 ^ 190 → Near.Mid a := fun h =>
    ⟨(pow_le_pow_of_le_one (by norm_num) (by norm_num) (by norm_num)).trans h.1,
      h.2.trans (pow_le_pow_right₀ (by norm_num) (by norm_num))⟩
  have mA : Near.Mid A := by
    have h := tame.field
    constructor
    · have e : ((1 : ℝ) / 2) ^ 200 ≤ 1 / 2 * (1 / 2) ^ 190 := by
        rw [← pow_succ']
        exact pow_le_pow_of_le_one (by norm_num) (by norm_num) (by norm_num)
      linarith [h.1]
    · exact le_trans (by linarith [h.2]) (h.2.trans (pow_le_pow_right₀ (by norm_num) (by norm_num)))
  have mX : Near.Mid (2 * X) := by
    refine mid ⟨tame.step.1.trans (by linarith), ?_⟩
    have e : (2 : ℝ) ^ 190 = 2 * 2 ^ 189 := by rw [← pow_succ']
    rw [e]
    exact mul_le_mul_of_nonneg_left tame.far (by norm_num)
  have mK' := mid mK
  have fol := Near.plane_follows same hr hu hA hK δ0 tolX mA mK' mX (by linarith)
  have fol' : Field.Follows f'.getField f.getField (2 * X) δ κ := by
    intro t' x' t x a b c d
    obtain ⟨h1, h2⟩ := fol t' x' t x a b c d
    have le : A * (13 * K * δ + 60 / 9007199254740992 * (K * (2 * X)) + 24 / 9007199254740992) ≤ κ := by
      have q1 : 13 * K * δ + 60 / 9007199254740992 * (K * (2 * X)) + 24 / 9007199254740992 ≤
          (146 * (K * X) + 30) / 9007199254740992 + 52 / 10 * (κ * τ) := by linarith
      have q2 := mul_le_mul_of_nonneg_left q1 A0.le
      have q3 : A * (52 / 10 * (κ * τ)) ≤ 52 / 320 * κ := by
        have e : A * (52 / 10 * (κ * τ)) = 52 / 10 * κ * (A * τ) := by ring
        rw [e]
        have : 52 / 10 * κ * (A * τ) ≤ 52 / 10 * κ * (1 / 32) := mul_le_mul_of_nonneg_left (by linarith) (by positivity)
        linarith
      have q4 : A * ((146 * (K * X) + 30) / 9007199254740992) ≤ 1 / 2 * κ := by
        rw [hκ]
        have := mul_pos A0 KX
        linarith
      linarith
    exact ⟨Near.close_weaken h1 le, Near.close_weaken h2 le⟩
  refine C144_run (Λ := 8 * A * K) start hd tame place time bound sl (by positivity) (by rw [u, hδ]; exact fol') κ0
    (by linarith) ?_ hε ?_ small small'
  · intro k hk
    have hc : |p.charge| ≤ 1 := by
      rcases start.charge with h | h <;> rw [h.2] <;> norm_num
    have h := abs_le.mp (C144_gamma start.alive.2 start.mass.2 hc τ0.le bound k)
    have kn : (k : ℝ) * (A * τ) ≤ n * (A * τ) :=
      mul_le_mul_of_nonneg_right (by exact_mod_cast hk) (by positivity)
    refine ⟨?_, by linarith⟩
    rcases hG with hG | hG
    · rw [hG]
      exact Near.one_le_gam _
    · linarith
  · rw [hL]
    field_simp
    ring

/-- C144 against the true trajectory: if `y` solves the equations of motion from the start of the particle, the place
and the momentum computed in double precision are off by no more than the error of the scheme (C104), which falls with
the step, and the error of rounding (`e` and `f`, as given by `C144_run`, `C144_static` and `C144_plane`), which rises
with the number of steps. -/
theorem C144_true {g' : Field F64} {g : Field ℝ} {dt : F64} {p' : Particle F64} {p : Particle ℝ} {τ F Λ e f : ℝ}
    (start : p'.Beside p 0 0) (hτ : 0 ≤ τ) (hF : ∀ s y, Bounded (g s y).1 F ∧ Bounded (g s y).2 F) (hs : g.Slowly Λ)
    (hΛ : 0 ≤ Λ) (k : ℕ)
    (h : ((pushParticle lorentzForce g' dt)^[k] p').Beside ((pushParticle lorentzForce g τ)^[k] p) e f)
    {T : ℝ} (hk : k * τ ≤ T) {y : ℝ → Phase} (hy0 : y p.time = (p.position.toVec, p.momentum.toVec))
    (hy : ∀ s ∈ Set.Icc p.time (p.time + T),
      HasDerivWithinAt y (motion p.mass (lorentz p.mass p.charge g) s (y s)) (Set.Icc p.time (p.time + T)) s) :
    let r := (pushParticle lorentzForce g' dt)^[k] p'
    let C := 3 / 2 * (4 + (3 * Λ + 8 * F)) * (2 + 3 * F) * T * Real.exp (2 * (4 + (3 * Λ + 8 * F)) * T)
    ∃ z q, r.position.At z ∧ r.momentum.At q ∧ ∀ i, |z i - (y (p.time + k * τ)).1 i| ≤ C * τ + e ∧
      |q i - (y (p.time + k * τ)).2 i| ≤ C * τ + f := by
  intro r C
  have hm : 0 < p.mass := by rw [start.mass.2]; norm_num
  have hc : |p.charge| = 1 := by
    rcases start.charge with h | h <;> rw [h.2] <;> norm_num
  obtain ⟨ht, hc104⟩ := C104_converges (Near.smooth hΛ hF hs) p start.alive.2 hm hy0 hy hτ k hk
  have hC : 3 / 2 * motionConst p.mass p.charge F Λ * (2 + 3 * |p.charge| * F) * T *
      Real.exp (2 * motionConst p.mass p.charge F Λ * T) = C := by
    unfold motionConst
    rw [start.mass.2, hc]
    norm_num [C]
  rw [hC, ht] at hc104
  obtain ⟨z, hz, dz⟩ := Near.at_vec h.place
  obtain ⟨q, hq, dq⟩ := Near.at_vec h.momentum
  refine ⟨z, q, hz, hq, fun i => ⟨?_, ?_⟩⟩
  · have := (abs_sub_le (z i) (((pushParticle lorentzForce g τ)^[k] p).position.toVec i) ((y (p.time + k * τ)).1 i))
    linarith [dz i, (hc104 i).1]
  · have := (abs_sub_le (q i) (((pushParticle lorentzForce g τ)^[k] p).momentum.toVec i) ((y (p.time + k * τ)).2 i))
    linarith [dq i, (hc104 i).2]

namespace DriftWitness

/-- An electron at the origin with momentum `2 m c` along the first axis. -/
noncomputable def electron (D : Type) [Dbl D] : Particle D :=
  .newLepton (lit 1) (lit (-1)) ⟨lit 0, lit 0, lit 0⟩ ⟨lit 2, lit 0, lit 0⟩ (lit 1) (lit 0) false (lit 0)

theorem start : (electron F64).Beside (electron ℝ) 0 0 := by
  have z : Near (lit 0 : F64) (lit 0 : ℝ) 0 := by
    have := Near.of_val zero_val
    simpa using this
  have t : Near (lit 2 : F64) (lit 2 : ℝ) 0 := by
    have := Near.of_val two_val
    simpa using this
  exact ⟨⟨rfl, rfl⟩, ⟨rfl, by simp [electron, Particle.newLepton, Particle.new]⟩,
    .inr ⟨rfl, by simp [electron, Particle.newLepton, Particle.new]⟩, z, ⟨z, z, z⟩, ⟨t, z, z⟩⟩

theorem gamma : gam (electron ℝ).momentum ≤ 3 := by
  unfold gam
  rw [Real.sqrt_le_left (by norm_num)]
  simp [electron, Particle.newLepton, Particle.new]
  norm_num

theorem exp_le {x : ℝ} {k : ℕ} (h : x ≤ k) : Real.exp x ≤ 3 ^ k := by
  have h1 : Real.exp 1 ≤ 3 := by linarith [Real.exp_one_lt_d9]
  calc Real.exp x ≤ Real.exp (k * 1) := Real.exp_le_exp.mpr (by linarith)
    _ = Real.exp 1 ^ k := Real.exp_nat_mul 1 k
    _ ≤ 3 ^ k := pow_le_pow_left₀ (Real.exp_pos _).le h1 k

theorem step : (lit (1 / 1024) : F64).1 = .fin (1 / 1024) := by
  have := FlightWitness.half_pow_lit 10 (by norm_num)
  norm_num at this
  exact this

theorem tame {F Γ X : ℝ} (l : 1 ≤ F) (h : F ≤ 2) (g : Γ ≤ 1000) (x : X ≤ 1000) : Tame F (1 / 1024) 1 Γ X := by
  have big : (1000 : ℝ) ≤ 2 ^ 189 := by
    calc (1000 : ℝ) ≤ 2 ^ 10 := by norm_num
      _ ≤ _ := pow_le_pow_right₀ (by norm_num) (by norm_num)
  have low : ((1 : ℝ) / 2) ^ 190 ≤ 1 / 1024 := by
    calc ((1 : ℝ) / 2) ^ 190 ≤ (1 / 2) ^ 10 := pow_le_pow_of_le_one (by norm_num) (by norm_num) (by norm_num)
      _ = _ := by norm_num
  have high : (2 : ℝ) ≤ 2 ^ 190 := le_self_pow₀ (by norm_num) (by norm_num)
  exact ⟨⟨low.trans (by linarith), by linarith⟩, ⟨low, by linarith⟩, by linarith, by norm_num, g.trans big,
    x.trans big⟩

end DriftWitness

open DriftWitness

/-- The hypotheses of `C144_static` can be met: a thousand steps in a magnetic field. The computed place is right to six
digits. -/
theorem DriftWitness.circles : ∀ k ≤ 1000,
    ((pushParticle lorentzForce (staticField ⟨lit 0, lit 0, lit 0⟩ ⟨lit 0, lit 0, lit 1⟩) (lit (1 / 1024)))^[k]
      (electron F64)).Beside
    ((pushParticle lorentzForce (staticField ⟨0, 0, 0⟩ ⟨0, 0, 1⟩) (1 / 1024))^[k] (electron ℝ))
      (1 / 1000000) (1 / 1000000) := by
  have u : (2 : ℝ) ^ 53 = 9007199254740992 := by norm_num
  have small : ∀ k ≤ 1000, errorAfter (errorPerStep 1 (1 / 1024) 1 10 4 0) (10 * 1 / 1) (1 / 1024) k ≤ 1 / 1000000 := by
    intro k hk
    have hk' : (k : ℝ) ≤ 1000 := by exact_mod_cast hk
    unfold errorAfter errorPerStep
    rw [u]
    have h := exp_le (x := (k : ℝ) * (10 * 1 / 1 * (1 / 1024))) (k := 10) (by norm_num; linarith)
    have h2 : (k : ℝ) * Real.exp (k * (10 * 1 / 1 * (1 / 1024))) ≤ 1000 * 3 ^ 10 :=
      mul_le_mul hk' h (Real.exp_pos _).le (by norm_num)
    refine (mul_le_mul_of_nonneg_right h2 (by norm_num)).trans ?_
    norm_num
  have zero : Near (lit 0 : F64) 0 0 := Near.of_val zero_val
  have unit : Near (lit 1 : F64) 1 0 := Near.of_val one_val
  have g := gamma
  intro k hk
  have h := C144_static (G := 1) (Γ := 10) (X := 4) (F := 1) (n := 1000) start step
    (tame (by norm_num) (by norm_num) (by norm_num) (by norm_num))
    (by refine ⟨?_, ?_, ?_⟩ <;> simp [electron, Particle.newLepton, Particle.new] <;> norm_num)
    (by simp [electron, Particle.newLepton, Particle.new]; norm_num) (e' := ⟨lit 0, lit 0, lit 0⟩)
    (b' := ⟨lit 0, lit 0, lit 1⟩) (e := ⟨0, 0, 0⟩) (b := ⟨0, 0, 1⟩)
    ⟨zero, zero, zero⟩ ⟨zero, zero, unit⟩ (by refine ⟨?_, ?_, ?_⟩ <;> simp)
    (by refine ⟨?_, ?_, ?_⟩ <;> simp) (.inl le_rfl) (by push_cast; linarith) rfl
    (by linarith [small 1000 le_rfl]) (by linarith [small 1000 le_rfl]) k hk
  have s := small k hk
  exact ⟨h.alive, h.mass, h.charge, h.time.weaken s, Near.close_weaken h.place s,
    Near.close_weaken h.momentum (by linarith)⟩

/-- The hypotheses of `C144_plane` can be met: a hundred steps in a wave of amplitude one. -/
example (f' : PlaneField F64) (f : PlaneField ℝ) (same : f'.Same f) (hr : f.rotation.Unit) (hu : f.rotationInv.Unit)
    (hA : f.maxE = 1) (hK : f.waveNum = 6) : ∀ k ≤ 100,
    ((pushParticle lorentzForce f'.getField (lit (1 / 1024)))^[k] (electron F64)).Beside
    ((pushParticle lorentzForce f.getField (1 / 1024))^[k] (electron ℝ)) (1 / 10000000) (1 / 5000000) := by
  have u : (2 : ℝ) ^ 53 = 9007199254740992 := by norm_num
  have small : ∀ k ≤ 100, errorAfter (errorPerStep (2 * 1) (1 / 1024) 1 5 1 (1 * (300 * (6 * 1) + 60) / 2 ^ 53))
      (12 * 6 + 20 * 1 / 1) (1 / 1024) k ≤ 1 / 10000000 := by
    intro k hk
    have hk' : (k : ℝ) ≤ 100 := by exact_mod_cast hk
    unfold errorAfter errorPerStep
    rw [u]
    have h := exp_le (x := (k : ℝ) * ((12 * 6 + 20 * 1 / 1) * (1 / 1024))) (k := 9) (by norm_num; linarith)
    have h2 : (k : ℝ) * Real.exp (k * ((12 * 6 + 20 * 1 / 1) * (1 / 1024))) ≤ 100 * 3 ^ 9 :=
      mul_le_mul hk' h (Real.exp_pos _).le (by norm_num)
    refine (mul_le_mul_of_nonneg_right h2 (by norm_num)).trans ?_
    norm_num
  have g := gamma
  intro k hk
  have h := C144_plane (G := 1) (Γ := 5) (X := 1) (A := 1) (K := 6) (n := 100) start step
    (tame (by norm_num) (by norm_num) (by norm_num) (by norm_num))
    (by refine ⟨?_, ?_, ?_⟩ <;> simp [electron, Particle.newLepton, Particle.new] <;> norm_num)
    (by simp [electron, Particle.newLepton, Particle.new]; norm_num) same hr hu (by rw [hA]; norm_num) (by rw [hK]; norm_num)
    ⟨le_trans (pow_le_one₀ (by norm_num) (by norm_num)) (by norm_num : (1 : ℝ) ≤ 6),
      le_trans (by norm_num : (6 : ℝ) ≤ 2 ^ 3) (pow_le_pow_right₀ (by norm_num) (by norm_num))⟩
    (by norm_num) (by norm_num) le_rfl (.inl rfl) (by push_cast; linarith) rfl rfl rfl
    (by linarith [small 100 le_rfl]) (by linarith [small 100 le_rfl]) k hk
  have s := small k hk
  exact ⟨h.alive, h.mass, h.charge, h.time.weaken s, Near.close_weaken h.place s,
    Near.close_weaken h.momentum (by linarith)⟩

/-- Such a pair of plane waves exists. -/
example : ∃ (f' : PlaneField F64) (f : PlaneField ℝ), f'.Same f ∧ f.rotation.Unit ∧ f.rotationInv.Unit ∧ f.maxE = 1 ∧
    f.waveNum = 6 := by
  refine ⟨⟨lit 1, lit 1, lit 0, lit 6, ⟨lit 1, lit 0, lit 0, lit 0, lit 1, lit 0, lit 0, lit 0, lit 1⟩,
    ⟨lit 1, lit 0, lit 0, lit 0, lit 1, lit 0, lit 0, lit 0, lit 1⟩⟩,
    ⟨1, 1, 0, 6, ⟨1, 0, 0, 0, 1, 0, 0, 0, 1⟩, ⟨1, 0, 0, 0, 1, 0, 0, 0, 1⟩⟩, ⟨one_val, six_val, zero_val, ?_, ?_⟩,
    ?_, ?_, rfl, rfl⟩
  · exact ⟨⟨one_val, zero_val, zero_val⟩, ⟨zero_val, one_val, zero_val⟩, zero_val, zero_val, one_val⟩
  · exact ⟨⟨one_val, zero_val, zero_val⟩, ⟨zero_val, one_val, zero_val⟩, zero_val, zero_val, one_val⟩
  · unfold M3.Unit
    norm_num
  · unfold M3.Unit
    norm_num

/-- The hypotheses of `C144_true` can be met: a thousand steps in a magnetic field. -/
example : ∃ y : ℝ → Phase, y 0 = (![0, 0, 0], ![2, 0, 0]) ∧ ∀ k ≤ 1000,
    let r := (pushParticle lorentzForce (staticField ⟨lit 0, lit 0, lit 0⟩ ⟨lit 0, lit 0, lit 1⟩) (lit (1 / 1024)))^[k]
      (electron F64)
    let C := 3 / 2 * (4 + (3 * 0 + 8 * 1)) * (2 + 3 * 1) * 1 * Real.exp (2 * (4 + (3 * 0 + 8 * 1)) * 1)
    ∃ z q, r.position.At z ∧ r.momentum.At q ∧ ∀ i, |z i - (y (k * (1 / 1024))).1 i| ≤ C * (1 / 1024) + 1 / 1000000 ∧
      |q i - (y (k * (1 / 1024))).2 i| ≤ C * (1 / 1024) + 1 / 1000000 := by
  have hF : ∀ (s : ℝ) (y : V3 ℝ), Bounded (staticField (⟨0, 0, 0⟩ : V3 ℝ) ⟨0, 0, 1⟩ s y).1 1 ∧
      Bounded (staticField (⟨0, 0, 0⟩ : V3 ℝ) ⟨0, 0, 1⟩ s y).2 1 := by
    intro s y
    refine ⟨⟨?_, ?_, ?_⟩, ?_, ?_, ?_⟩ <;> simp [staticField]
  have hs : Field.Slowly (staticField (⟨0, 0, 0⟩ : V3 ℝ) ⟨0, 0, 1⟩) 0 := by
    intro s t d x y _ _
    refine ⟨⟨?_, ?_, ?_⟩, ?_, ?_, ?_⟩ <;> simp [staticField, V3.sub]
  have hm : (0 : ℝ) < (electron ℝ).mass := by simp [electron, Particle.newLepton, Particle.new]
  obtain ⟨y, y0, hy⟩ := motion_solution (Near.smooth le_rfl hF hs) hm (electron ℝ).charge (electron ℝ).time
    ((electron ℝ).position.toVec, (electron ℝ).momentum.toVec) (T := 1) (by norm_num)
  have t0 : (electron ℝ).time = 0 := by simp [electron, Particle.newLepton, Particle.new]
  refine ⟨y, ?_, ?_⟩
  · rw [t0] at y0
    rw [y0]
    simp [electron, Particle.newLepton, Particle.new, V3.toVec]
  · intro k hk
    have hk' : (k : ℝ) ≤ 1000 := by exact_mod_cast hk
    have h := C144_true start (by norm_num) hF hs le_rfl k (circles k hk) (T := 1) (by linarith) y0 hy
    rw [t0, zero_add] at h
    exact h

end QED
