import Verif.Spec.Flight
import Verif.Lemmas.F64Flight
import Verif.Lemmas.F64Stuck

set_option autoImplicit false
set_option exponentiation.threshold 2000

/-!
# Straight flight in double precision
-/

namespace QED

open Dbl F64

/-- What a step leaves of a particle. -/
theorem Flight.iterate_keeps {push : PushMom F64} {field : Field F64} {dt : F64} {p : Particle F64} {d : V3 F64}
    (ha : p.isAlive = true)
    (hstep : ∀ q : Particle F64, q.isAlive = true → q.mass = p.mass → q.charge = p.charge → q.momentum = p.momentum →
      (pushParticle push field dt q).position = q.position.add d ∧ (pushParticle push field dt q).momentum = q.momentum)
    (n : ℕ) : ((pushParticle push field dt)^[n] p).isAlive = true ∧
      ((pushParticle push field dt)^[n] p).mass = p.mass ∧ ((pushParticle push field dt)^[n] p).charge = p.charge ∧
      ((pushParticle push field dt)^[n] p).momentum = p.momentum ∧
      ((pushParticle push field dt)^[n + 1] p).position = ((pushParticle push field dt)^[n] p).position.add d ∧
      ((pushParticle push field dt)^[n + 1] p).time = ((pushParticle push field dt)^[n] p).time +. dt := by
  have same : ∀ q : Particle F64, q.isAlive = true → (pushParticle push field dt q).isAlive = true ∧
      (pushParticle push field dt q).mass = q.mass ∧ (pushParticle push field dt q).charge = q.charge ∧
      (pushParticle push field dt q).time = q.time +. dt := by
    intro q hq
    unfold pushParticle
    rw [if_neg (by simp [hq])]
    split_ifs <;> (simp only [Particle.updateTrack, Particle.updateTime]; split_ifs <;> simp [hq])
  induction n with
  | zero =>
    exact ⟨ha, rfl, rfl, rfl, (hstep p ha rfl rfl rfl).1, (same p ha).2.2.2⟩
  | succ n ih =>
    obtain ⟨h1, h2, h3, h4, -, -⟩ := ih
    have s := same _ h1
    have t := hstep _ h1 h2 h3 h4
    rw [← Function.iterate_succ_apply' (pushParticle push field dt) n p] at s t
    have g1 := s.1
    have g2 := s.2.1.trans h2
    have g3 := s.2.2.1.trans h3
    have g4 := t.2.trans h4
    refine ⟨g1, g2, g3, g4, ?_, ?_⟩
    · rw [Function.iterate_succ_apply' (pushParticle push field dt) (n + 1) p]
      exact (hstep _ g1 g2 g3 g4).1
    · rw [Function.iterate_succ_apply' (pushParticle push field dt) (n + 1) p]
      exact (same _ g1).2.2.2

theorem Flight.flies {push : PushMom F64} {field : Field F64} {dt : F64} {p : Particle F64} {d : V3 F64}
    {δ v : Fin 3 → ℝ} {τ : ℝ} (ha : p.isAlive = true)
    (hstep : ∀ q : Particle F64, q.isAlive = true → q.mass = p.mass → q.charge = p.charge → q.momentum = p.momentum →
      (pushParticle push field dt q).position = q.position.add d ∧ (pushParticle push field dt q).momentum = q.momentum)
    (hd : d.At δ) (hδ : ∀ i, |δ i - τ * v i| ≤ 14 / 9007199254740992 * τ) (hv : ∀ i, |v i| ≤ 1)
    (ht : dt.1 = .fin τ) (tlo : (1 / 2) ^ 400 ≤ τ) : FliesStraight (pushParticle push field dt) p v τ := by
  intro x₀ t₀ L n hx ht0 hn hL hL' Lhi k hk
  have keep := Flight.iterate_keeps ha hstep
  have hτ : 0 < τ := lt_of_lt_of_le (by positivity) tlo
  have e53 : (2 : ℝ) ^ 53 = 9007199254740992 := by norm_num
  rw [e53]
  refine ⟨(keep k).2.2.2.1, ?_, ?_⟩
  · obtain ⟨z0, h0, b0⟩ := Flight.positions (x := fun k => ((pushParticle push field dt)^[k] p).position.x) hx.1 hd.1
      (fun k _ => by show V3.x _ = _; rw [(keep k).2.2.2.2.1]; rfl) hτ (hv 0) (hδ 0) hn (hL 0) Lhi tlo k hk
    obtain ⟨z1, h1, b1⟩ := Flight.positions (x := fun k => ((pushParticle push field dt)^[k] p).position.y) hx.2.1 hd.2.1
      (fun k _ => by show V3.y _ = _; rw [(keep k).2.2.2.2.1]; rfl) hτ (hv 1) (hδ 1) hn (hL 1) Lhi tlo k hk
    obtain ⟨z2, h2, b2⟩ := Flight.positions (x := fun k => ((pushParticle push field dt)^[k] p).position.z) hx.2.2 hd.2.2
      (fun k _ => by show V3.z _ = _; rw [(keep k).2.2.2.2.1]; rfl) hτ (hv 2) (hδ 2) hn (hL 2) Lhi tlo k hk
    refine ⟨![z0, z1, z2], ⟨h0, h1, h2⟩, ?_⟩
    intro i
    fin_cases i
    · exact b0
    · exact b1
    · exact b2
  · obtain ⟨t, h, b⟩ := Flight.positions (x := fun k => ((pushParticle push field dt)^[k] p).time) (b := 1) ht0 ht
      (fun k _ => (keep k).2.2.2.2.2) hτ (by simp) (by rw [mul_one, sub_self, abs_zero]; positivity) hn hL' Lhi tlo k hk
    rw [mul_one] at b
    exact ⟨t, h, b⟩

theorem Flight.eq_of_val {a b : F64} {x : ℝ} (ha : a.1 = .fin x) (hb : b.1 = .fin x) : a = b :=
  Subtype.ext (ha.trans hb.symm)

theorem Flight.minus_val : (lit (-1) : F64).1 = .fin (-1) := by
  have := rep_int (n := -1) (by norm_num)
  rw [lit_val (by push_cast at this ⊢; exact this)]
  norm_num

theorem Flight.no_force {p : V3 F64} {a : Fin 3 → ℝ} {g : ℝ} {c : F64} {r : ℝ} (ha : p.At a) (hc : c.1 = .fin r)
    (hg : (lit 1 *. pushGamma (lit 1) p : F64).1 = .fin g) (g0 : 0 < g) :
    lorentzForce (lit 1) c p ⟨lit 0, lit 0, lit 0⟩ ⟨lit 0, lit 0, lit 0⟩ = ⟨lit 0, lit 0, lit 0⟩ := by
  have key : ∀ {a b : F64} {x y : ℝ}, a.1 = .fin x → b.1 = .fin y →
      c *. (lit 0 +. (a *. lit 0 -. b *. lit 0) /. (lit 1 *. pushGamma (lit 1) p)) = (lit 0 : F64) := by
    intro a b x y ha hb
    exact Flight.eq_of_val (mul_zero_at hc (zero_add_at zero_val (zero_div_at (zero_sub_zero_at
      (mul_zero_at ha zero_val) (mul_zero_at hb zero_val)) hg g0.ne'))) zero_val
  show V3.mk _ _ _ = V3.mk _ _ _
  congr 1
  · exact key ha.2.1 ha.2.2
  · exact key ha.2.2 ha.1
  · exact key ha.1 ha.2.1

theorem Flight.add_nothing {p w : V3 F64} {a : Fin 3 → ℝ} (ha : p.At a) (hw : w.At (fun _ => 0)) : p.add w = p := by
  obtain ⟨x, y, z⟩ := p
  show V3.mk _ _ _ = V3.mk _ _ _
  congr 1
  · exact Flight.eq_of_val (add_zero_at ha.1 hw.1) ha.1
  · exact Flight.eq_of_val (add_zero_at ha.2.1 hw.2.1) ha.2.1
  · exact Flight.eq_of_val (add_zero_at ha.2.2 hw.2.2) ha.2.2

namespace FlightWitness

/-- A photon at this place with this momentum along the first axis. -/
noncomputable def photon (x p : F64) : Particle F64 :=
  .newPhoton ⟨x, lit 0, lit 0⟩ ⟨p, lit 0, lit 0⟩ (lit 1) (lit 0) false (lit 0)

theorem len_axis {x : ℝ} (hx : 0 ≤ x) : len ![x, 0, 0] = x := by
  unfold len
  simp [Real.sqrt_sq hx]

theorem two_pow_lit (n : ℕ) (hn : n ≤ 1000) : (lit (2 ^ n) : F64).1 = .fin (2 ^ n) := by
  have h : Rep (((2 ^ n : ℚ)) : ℝ) := by
    push_cast
    refine ⟨⟨1, n, by norm_num, by omega, by simp⟩, ?_⟩
    rw [abs_of_pos (by positivity)]
    exact pow_lt_pow_right₀ (by norm_num) (by omega)
  rw [lit_val h]
  push_cast
  rfl

theorem half_pow_lit (n : ℕ) (hn : n ≤ 1000) : (lit ((1 / 2) ^ n) : F64).1 = .fin ((1 / 2) ^ n) := by
  have h : Rep ((((1 / 2) ^ n : ℚ)) : ℝ) := by
    push_cast
    refine ⟨⟨1, -n, by norm_num, by omega, by simp⟩, ?_⟩
    rw [abs_of_pos (by positivity)]
    calc ((1 : ℝ) / 2) ^ n ≤ 1 := pow_le_one₀ (by norm_num) (by norm_num)
      _ < _ := one_lt_pow₀ (by norm_num) (by norm_num)
  rw [lit_val h]
  push_cast
  rfl

theorem mag2_axis {p s : F64} (h : (p *. p).1 = s.1) (hs : ∀ w : F64, w.1 = .fin 0 → (s +. w).1 = s.1) :
    (V3.mk p (lit 0) (lit 0) : V3 F64).mag2.1 = s.1 := by
  have z := zero_mul_at zero_val zero_val
  have e : p *. p = s := Subtype.ext h
  show ((p *. p +. lit 0 *. lit 0) +. lit 0 *. lit 0).1 = _
  rw [e]
  have e2 : s +. (lit 0 *. lit 0) = s := Subtype.ext (hs _ z)
  rw [e2, e2]

/-- One step of such a photon. -/
theorem push_photon {push : PushMom F64} {field : Field F64} {dt p : F64} {q : Particle F64} (ha : q.isAlive = true)
    (hm : q.mass = lit 0) (hp : q.momentum = ⟨p, lit 0, lit 0⟩) :
    (pushParticle push field dt q).position =
      q.position.add ((⟨p, lit 0, lit 0⟩ : V3 F64).smul (dt /. (⟨p, lit 0, lit 0⟩ : V3 F64).mag)) ∧
    (pushParticle push field dt q).momentum = q.momentum := by
  have hz : (q.mass ==. (lit 0 : F64)) = true := by
    rw [hm]
    show ((lit 0 : F64).1 ==. (lit 0 : F64).1) = true
    rw [zero_val]
    simp
  unfold pushParticle
  rw [if_neg (by simp [ha]), if_pos hz]
  simp only [Particle.updateTrack, Particle.updateTime]
  rw [hp]
  split_ifs <;> exact ⟨rfl, rfl⟩

theorem axis_step {push : PushMom F64} {field : Field F64} {dt x p : F64} {d : V3 F64}
    (hd : (⟨p, lit 0, lit 0⟩ : V3 F64).smul (dt /. (⟨p, lit 0, lit 0⟩ : V3 F64).mag) = d) (n : ℕ) :
    ((pushParticle push field dt)^[n + 1] (photon x p)).position =
      ((pushParticle push field dt)^[n] (photon x p)).position.add d :=
  (Flight.iterate_keeps (p := photon x p) (d := d) rfl (fun q ha hm _ hp => by
    rw [← hd]
    exact push_photon ha hm hp) n).2.2.2.2.1

theorem round_tiny {x : ℝ} (hx : |x| ≤ 2 ^ (-1100 : ℤ)) : F64.round x = 0 := by
  have h := round_abs_le x
  have e1 : (2 : ℝ) ^ (-1074 : ℤ) = 2 ^ (-1100 : ℤ) * 67108864 := by
    rw [show (-1074 : ℤ) = -1100 + 26 by norm_num, zpow_add₀ (by norm_num)]
    norm_num
  have e2 : eta = 2 ^ (-1100 : ℤ) * 33554432 := by
    unfold eta
    rw [show (-1075 : ℤ) = -1100 + 25 by norm_num, zpow_add₀ (by norm_num)]
    norm_num
  have hp : (0 : ℝ) < 2 ^ (-1100 : ℤ) := by positivity
  obtain ⟨k, hk⟩ := form_multiple (form_round x)
  rw [hk, e1] at h
  rw [e2] at h
  rw [hk]
  generalize (2 : ℝ) ^ (-1100 : ℤ) = P at *
  by_cases hk0 : k = 0
  · rw [hk0]
    simp
  · exfalso
    have h1 : (1 : ℝ) ≤ |(k : ℝ)| := by exact_mod_cast Int.one_le_abs hk0
    rw [abs_mul, abs_of_pos (by positivity : 0 < P * 67108864)] at h
    nlinarith

end FlightWitness

end QED
