import Verif.Spec.FirstPair
import Verif.Lemmas.FirstEmission

set_option autoImplicit false

/-!
# The conversion of a photon: helpers
-/

namespace QED

open MCTools MeasureTheory Filter Topology

section event

variable {cfg : SimCfg ℝ} {b : BWCfg ℝ} {logt : ℝ → ℝ} {share : ℝ → ℝ → ℝ} {p : Particle ℝ}

theorem conversions_delta (b : BWCfg ℝ) (logt : ℝ → ℝ) (q : Particle ℝ) :
    conversions b logt q = bwDelta b.dt (bwChi b.field q) (logt (bwChi b.field q)) q.energy := by
  unfold conversions bwDelta
  simp

theorem pairLepton_made (b : BWCfg ℝ) (q : Particle ℝ) (d c ε u : ℝ) :
    pairLepton c ε (q.withDepth d) b.track u = (madeBy b q c ε).withDepth (initDepth u) := by
  unfold pairLepton madeBy Particle.newLepton Particle.new Particle.withDepth Particle.leptonKind Particle.direction
  simp only [real_lit, real_eq, real_mul, real_sub, real_sqrt, decide_eq_true_eq]
  norm_num [sq]

theorem made_kind (b : BWCfg ℝ) (q : Particle ℝ) (c ε : ℝ) : (madeBy b q c ε).kind ≠ .photon := by
  unfold madeBy
  dsimp only
  split <;> simp

/-- A lepton is only pushed. -/
theorem visit_charged (hp : cfg.procs = [.breitWheeler b]) (nm : String) (mx : Nat)
    (pre post : List (Particle ℝ)) (x : Particle ℝ) (r : Rng ℝ) (hx : x.kind ≠ .photon) :
    visit cfg pre.length ⟨nm, mx, pre ++ x :: post⟩ r =
      .ok (⟨nm, mx, pre ++ pushParticle cfg.push cfg.field cfg.dt x :: post⟩, r) := by
  set y := pushParticle cfg.push cfg.field cfg.dt x with hy
  have hm : y.kind ≠ .photon := by
    rw [hy, (push_identity cfg.push cfg.field cfg.dt x).1]
    exact hx
  have hget : ∀ z : Particle ℝ, (⟨nm, mx, pre ++ z :: post⟩ : PList ℝ).get pre.length = .ok z := by
    intro z
    rw [PList.get_eq_ok]
    simp
  have hset : ∀ z w : Particle ℝ, (⟨nm, mx, pre ++ z :: post⟩ : PList ℝ).set pre.length w =
      ⟨nm, mx, pre ++ w :: post⟩ := by
    intro z w
    simp [PList.set]
  unfold visit
  rw [hget, Res.ok_bind, hp]
  show interactAll _ _ ((⟨nm, mx, pre ++ x :: post⟩ : PList ℝ).set pre.length y) r = _
  rw [hset, interactAll]
  unfold interactAt
  rw [hget, Res.ok_bind]
  have : (Proc.breitWheeler b).interact y ⟨nm, mx, pre ++ y :: post⟩ r =
      .ok (y, ⟨nm, mx, pre ++ y :: post⟩, r) := by
    show bwInteract b y _ r = _
    unfold bwInteract
    rw [if_pos]
    left
    show y.typeName ≠ "Photon"
    unfold Particle.typeName
    split <;> simp_all
  rw [this, Res.ok_bind]
  show interactAll [] pre.length ((⟨nm, mx, pre ++ y :: post⟩ : PList ℝ).set pre.length y) r = _
  rw [hset]
  rfl

/-- An event whose only particle is `q` with depth `d`, and whose next draws are `us`. -/
structure SolePhoton (s : EvState ℝ) (q : Particle ℝ) (d : ℝ) (us : List ℝ) : Prop where
  items : s.list.items = [q.withDepth d]
  room : 3 ≤ s.list.maxParticles
  draws : s.rng.Begins us
  hists : s.hists = []

theorem alone_quiet (hp : cfg.procs = [.breitWheeler b]) {s : EvState ℝ} {q : Particle ℝ} {d : ℝ} {us : List ℝ}
    (hs : SolePhoton s q d us) (hk : q.kind = .photon) (hm : q.mass = 0) (ha : q.isAlive = true)
    (hl : Numerics.interpolate1D b.tAxis b.tData
      (Dbl.log10 (bwChi b.field (pushParticle cfg.push cfg.field cfg.dt q))) =
        .ok (logt (bwChi b.field (pushParticle cfg.push cfg.field cfg.dt q))))
    (hd : conversions b logt (pushParticle cfg.push cfg.field cfg.dt q) ≤ d) :
    ∃ s', timeStep cfg s = .ok s' ∧ s'.time = s.time + cfg.dt ∧
      SolePhoton s' (pushParticle cfg.push cfg.field cfg.dt q)
        (d - conversions b logt (pushParticle cfg.push cfg.field cfg.dt q)) us := by
  obtain ⟨i1, i2, _, _, _, i3, _⟩ := push_identity cfg.push cfg.field cfg.dt q
  have ht : Takes cfg.procs (pushParticle cfg.push cfg.field cfg.dt q)
      (conversions b logt (pushParticle cfg.push cfg.field cfg.dt q)) := by
    rw [hp, conversions_delta]
    exact bw_takes (pre := []) (post := []) (by simp) (i1.trans hk) (i2.trans hm) (i3.trans ha) hl
  have hadv := advance_keeps (nm := s.list.name) (mx := s.list.maxParticles) (r := s.rng)
    (by have := hs.room; omega) ht hd
  have hl : s.list = ⟨s.list.name, s.list.maxParticles, [q.withDepth d]⟩ := by rw [← hs.items]
  rw [← hl] at hadv
  exact ⟨_, (timeStep_nil hs.hists).mpr ⟨_, _, hadv, rfl⟩, rfl, rfl, hs.room, hs.draws, hs.hists⟩

theorem alone_drawn (hp : cfg.procs = [.breitWheeler b]) {s : EvState ℝ} {q : Particle ℝ} {d v x y : ℝ} {rest : List ℝ}
    (hs : SolePhoton s q d (v :: x :: y :: rest)) (hk : q.kind = .photon) (ha : q.isAlive = true)
    (hl : Numerics.interpolate1D b.tAxis b.tData
      (Dbl.log10 (bwChi b.field (pushParticle cfg.push cfg.field cfg.dt q))) =
        .ok (logt (bwChi b.field (pushParticle cfg.push cfg.field cfg.dt q))))
    (hsp : bwSplit b (bwChi b.field (pushParticle cfg.push cfg.field cfg.dt q)) v =
      .ok (share (bwChi b.field (pushParticle cfg.push cfg.field cfg.dt q)) v))
    (hd : ¬ conversions b logt (pushParticle cfg.push cfg.field cfg.dt q) ≤ d) :
    ∃ s' dead, timeStep cfg s = .ok s' ∧ s'.time = s.time + cfg.dt ∧ dead.isAlive = false ∧
      s'.list.items = [dead,
        (pushParticle cfg.push cfg.field cfg.dt (madeBy b (pushParticle cfg.push cfg.field cfg.dt q) 1
          (share (bwChi b.field (pushParticle cfg.push cfg.field cfg.dt q)) v *
            (pushParticle cfg.push cfg.field cfg.dt q).energy))).withDepth (initDepth x),
        (pushParticle cfg.push cfg.field cfg.dt (madeBy b (pushParticle cfg.push cfg.field cfg.dt q) (-1)
          ((1 - share (bwChi b.field (pushParticle cfg.push cfg.field cfg.dt q)) v) *
            (pushParticle cfg.push cfg.field cfg.dt q).energy))).withDepth (initDepth y)] := by
  obtain ⟨i1, i2, _, _, _, i3, _⟩ := push_identity cfg.push cfg.field cfg.dt q
  obtain ⟨q', hq'⟩ : ∃ q', q' = pushParticle cfg.push cfg.field cfg.dt q := ⟨_, rfl⟩
  rw [← hq'] at hl hsp hd i1 i3 ⊢
  obtain ⟨hv, hs2⟩ := begins_cons.mp hs.draws
  obtain ⟨hx, hs3⟩ := begins_cons.mp hs2
  obtain ⟨hy, hs4⟩ := begins_cons.mp hs3
  obtain ⟨nm, hnm⟩ : ∃ nm, nm = s.list.name := ⟨_, rfl⟩
  obtain ⟨mx, hmx⟩ : ∃ mx, mx = s.list.maxParticles := ⟨_, rfl⟩
  have hlist : s.list = ⟨nm, mx, [q.withDepth d]⟩ := by rw [← hs.items, hnm, hmx]
  have hroom := hs.room
  rw [← hmx] at hroom
  obtain ⟨E1, hE1⟩ : ∃ E, E = share (bwChi b.field q') v * q'.energy := ⟨_, rfl⟩
  obtain ⟨E2, hE2⟩ : ∃ E, E = (1 - share (bwChi b.field q') v) * q'.energy := ⟨_, rfl⟩
  rw [← hE1, ← hE2]
  -- the photon
  obtain ⟨dead, hdead, hint⟩ : ∃ dead : Particle ℝ, dead.isAlive = false ∧
      bwInteract b (q'.withDepth d) ⟨nm, mx, [q'.withDepth d]⟩ s.rng =
        .ok (dead, ⟨nm, mx, [q'.withDepth d, (madeBy b q' 1 E1).withDepth (initDepth x),
          (madeBy b q' (-1) E2).withDepth (initDepth y)]⟩, s.rng.next.2.next.2.next.2) := by
    refine ⟨((q'.withDepth d).updateOpticalDepth (conversions b logt q')).kill, rfl, ?_⟩
    have hl' : Numerics.interpolate1D b.tAxis b.tData (Dbl.log10 (bwChi b.field (q'.withDepth d))) =
      .ok (logt (bwChi b.field q')) := hl
    have hneg : (((q'.withDepth d).updateOpticalDepth
        (bwDelta b.dt (bwChi b.field (q'.withDepth d)) (logt (bwChi b.field q'))
          (q'.withDepth d).energy)).opticalDepth <. Dbl.lit 0) = true := by
      show (d -. bwDelta b.dt (bwChi b.field q') (logt (bwChi b.field q')) q'.energy <. Dbl.lit 0) = true
      rw [← conversions_delta]
      have : d - conversions b logt q' < 0 := by push Not at hd; linarith
      simpa using this
    unfold bwInteract
    rw [if_neg (by
      have h1 : (q'.withDepth d).kind = .photon := i1.trans hk
      have h2 : (q'.withDepth d).isAlive = true := i3.trans ha
      simp [Particle.typeName, h1, h2])]
    dsimp only
    rw [hl', Res.ok_bind, if_pos hneg, hv, show bwChi b.field (q'.withDepth d) = bwChi b.field q' from rfl, hsp,
      Res.ok_bind, hx, hy]
    have e1 : ∀ δ c ε u, pairLepton c ε ((q'.withDepth d).updateOpticalDepth δ) b.track u =
        (madeBy b q' c ε).withDepth (initDepth u) := fun δ c ε u => pairLepton_made b q' _ c ε u
    have e2 : ∀ δ, ((q'.withDepth d).updateOpticalDepth δ).energy = q'.energy := fun δ => rfl
    have e3 : (q'.withDepth d).energy = q'.energy := rfl
    rw [e1, e1, e2, e3, ← conversions_delta]
    have a1 : (Dbl.lit 1 : ℝ) = 1 := by simp
    have a2 : (Dbl.lit (-1) : ℝ) = -1 := by simp
    rw [a1, a2]
    simp only [real_mul, real_sub]
    rw [← hE1, ← hE2]
    have f1 : ∀ z : Particle ℝ, (⟨nm, mx, [q'.withDepth d]⟩ : PList ℝ).add z = ⟨nm, mx, [q'.withDepth d, z]⟩ := by
      intro z
      unfold PList.add
      rw [if_pos (by show 1 < mx; omega)]
      rfl
    have f2 : ∀ z w : Particle ℝ, (⟨nm, mx, [q'.withDepth d, z]⟩ : PList ℝ).add w =
        ⟨nm, mx, [q'.withDepth d, z, w]⟩ := by
      intro z w
      unfold PList.add
      rw [if_pos (by show 2 < mx; omega)]
      rfl
    rw [f1, f2]
  have hv0 : visit cfg 0 ⟨nm, mx, [q.withDepth d]⟩ s.rng =
      .ok (⟨nm, mx, [dead, (madeBy b q' 1 E1).withDepth (initDepth x),
          (madeBy b q' (-1) E2).withDepth (initDepth y)]⟩, s.rng.next.2.next.2.next.2) := by
    unfold visit
    rw [show (⟨nm, mx, [q.withDepth d]⟩ : PList ℝ).get 0 = .ok (q.withDepth d) from rfl, Res.ok_bind, hp]
    show interactAll [.breitWheeler b] 0
      ⟨nm, mx, [pushParticle cfg.push cfg.field cfg.dt (q.withDepth d)]⟩ s.rng = _
    rw [push_withDepth, ← hq', interactAll]
    have : interactAt (.breitWheeler b) 0 ⟨nm, mx, [q'.withDepth d]⟩ s.rng =
        .ok (⟨nm, mx, [dead, (madeBy b q' 1 E1).withDepth (initDepth x),
          (madeBy b q' (-1) E2).withDepth (initDepth y)]⟩, s.rng.next.2.next.2.next.2) := by
      show (bwInteract b (q'.withDepth d) ⟨nm, mx, [q'.withDepth d]⟩ s.rng >>= _) = _
      rw [hint, Res.ok_bind]
      rfl
    rw [this, Res.ok_bind]
    rfl
  have hv1 := visit_charged hp nm mx [dead] [(madeBy b q' (-1) E2).withDepth (initDepth y)]
    ((madeBy b q' 1 E1).withDepth (initDepth x)) s.rng.next.2.next.2.next.2 (made_kind b q' 1 E1)
  have hv2 := visit_charged hp nm mx [dead, pushParticle cfg.push cfg.field cfg.dt
      ((madeBy b q' 1 E1).withDepth (initDepth x))] []
    ((madeBy b q' (-1) E2).withDepth (initDepth y)) s.rng.next.2.next.2.next.2 (made_kind b q' (-1) E2)
  rw [push_withDepth] at hv1 hv2
  rw [push_withDepth] at hv2
  have hadv : advance cfg s.list s.rng = .ok (⟨nm, mx, [dead,
      (pushParticle cfg.push cfg.field cfg.dt (madeBy b q' 1 E1)).withDepth (initDepth x),
      (pushParticle cfg.push cfg.field cfg.dt (madeBy b q' (-1) E2)).withDepth (initDepth y)]⟩,
      s.rng.next.2.next.2.next.2) := by
    rw [hlist]
    unfold advance
    show particleLoop cfg mx 0 ⟨nm, mx, [q.withDepth d]⟩ s.rng = _
    obtain ⟨f, hf⟩ : ∃ f, mx = f + 3 := ⟨mx - 3, by omega⟩
    have hloop : ∀ f, particleLoop cfg (f + 3) 0 ⟨nm, mx, [q.withDepth d]⟩ s.rng = .ok (⟨nm, mx, [dead,
      (pushParticle cfg.push cfg.field cfg.dt (madeBy b q' 1 E1)).withDepth (initDepth x),
      (pushParticle cfg.push cfg.field cfg.dt (madeBy b q' (-1) E2)).withDepth (initDepth y)]⟩,
      s.rng.next.2.next.2.next.2) := by
      intro f
      rw [particleLoop, if_pos (by simp [PList.nPart]), hv0, Res.ok_bind]
      dsimp only
      rw [particleLoop, if_pos (by simp [PList.nPart])]
      simp only [List.length_cons, List.length_nil, List.cons_append, List.nil_append, zero_add] at hv1
      rw [Nat.zero_add, hv1, Res.ok_bind]
      dsimp only
      rw [particleLoop, if_pos (by simp [PList.nPart])]
      simp only [List.length_cons, List.length_nil, List.cons_append, List.nil_append, zero_add] at hv2
      rw [hv2, Res.ok_bind]
      dsimp only
      cases f with
      | zero => rfl
      | succ f => rw [particleLoop, if_neg (by simp [PList.nPart])]
    have := hloop f
    rw [← hf] at this
    exact this
  exact ⟨_, dead, (timeStep_nil hs.hists).mpr ⟨_, _, hadv, rfl⟩, rfl, hdead, rfl⟩

/-- The event follows `pick`. -/
theorem pair_pick (hp : cfg.procs = [.breitWheeler b]) (hk : p.kind = .photon) (hm : p.mass = 0) (ha : p.isAlive = true)
    (v x y : ℝ) (rest : List ℝ) (n : Nat) :
    ∀ (i : Nat) (s : EvState ℝ) (d : ℝ), SolePhoton s (pushes cfg p i) d (v :: x :: y :: rest) → 0 ≤ d →
      (∀ k, i ≤ k → k < i + n → Numerics.interpolate1D b.tAxis b.tData
        (Dbl.log10 (bwChi b.field (pushes cfg p (k + 1)))) = .ok (logt (bwChi b.field (pushes cfg p (k + 1))))) →
      (∀ k, i ≤ k → k < i + n → 0 < conversions b logt (pushes cfg p (k + 1)) →
        bwSplit b (bwChi b.field (pushes cfg p (k + 1))) v = .ok (share (bwChi b.field (pushes cfg p (k + 1))) v)) →
      (∀ k < n, s.time + k * cfg.dt < cfg.timeEnd) →
      (∃ t q, Steps cfg s n t ∧ t.list.items = [q] ∧ q.isAlive = true ∧
        ∀ c, pick (fun k => conversions b logt (pushes cfg p (k + 1))) c n i d = 0) ∨
      ∃ k < n, ∃ s' q t dead, Steps cfg s k s' ∧ s'.list.items = [q] ∧ q.isAlive = true ∧ Steps cfg s (k + 1) t ∧
        dead.isAlive = false ∧ t.list.items = [dead,
        (pushParticle cfg.push cfg.field cfg.dt (madeBy b (pushes cfg p (i + k + 1)) 1
          (share (bwChi b.field (pushes cfg p (i + k + 1))) v * (pushes cfg p (i + k + 1)).energy))).withDepth
            (initDepth x),
        (pushParticle cfg.push cfg.field cfg.dt (madeBy b (pushes cfg p (i + k + 1)) (-1)
          ((1 - share (bwChi b.field (pushes cfg p (i + k + 1))) v) * (pushes cfg p (i + k + 1)).energy))).withDepth
            (initDepth y)] ∧
        ∀ c, pick (fun k => conversions b logt (pushes cfg p (k + 1))) c n i d = c (i + k) := by
  induction n with
  | zero =>
    intro i s d hs _ _ _ _
    exact Or.inl ⟨s, _, .zero, hs.items, (pushes_identity cfg p i).2.2.trans ha, fun c => rfl⟩
  | succ n ih =>
    intro i s d hs hd0 hlogt hsp hend
    have hid := pushes_identity cfg p i
    have hsucc : pushParticle cfg.push cfg.field cfg.dt (pushes cfg p i) = pushes cfg p (i + 1) := (pushes_succ cfg p i).symm
    have htime : (s.time <. cfg.timeEnd) = true := by simpa using hend 0 (by omega)
    by_cases hd : conversions b logt (pushes cfg p (i + 1)) ≤ d
    · obtain ⟨s', h1, h3, h4⟩ := alone_quiet (logt := logt) hp hs (hid.1.trans hk) (hid.2.1.trans hm) (hid.2.2.trans ha)
        (by rw [hsucc]; exact hlogt i le_rfl (by omega)) (by rw [hsucc]; exact hd)
      rw [hsucc] at h4
      rcases ih (i + 1) s' _ h4 (by linarith) (fun k a b => hlogt k (by omega) (by omega))
        (fun k a b => hsp k (by omega) (by omega)) (fun k hk => by
          have := hend (k + 1) (by omega)
          push_cast at this
          rw [h3]; linarith) with ⟨t, q, a1, a2, a2', a3⟩ | ⟨k, hk, s'', q, t, dead, a1, a2, a3, a4, a5, a6, a7⟩
      · refine Or.inl ⟨t, q, .cons htime h1 a1, a2, a2', fun c => ?_⟩
        rw [pick, if_pos hd]
        exact a3 c
      · refine Or.inr ⟨k + 1, by omega, s'', q, t, dead, .cons htime h1 a1, a2, a3, .cons htime h1 a4, a5, ?_,
          fun c => ?_⟩
        · rw [a6, show i + 1 + k + 1 = i + (k + 1) + 1 by omega]
        · rw [pick, if_pos hd, a7, show i + 1 + k = i + (k + 1) by omega]
    · have hpos : 0 < conversions b logt (pushes cfg p (i + 1)) := by push Not at hd; linarith
      obtain ⟨s', dead, h1, h2, h3, h4⟩ := alone_drawn (logt := logt) (share := share) hp hs (hid.1.trans hk)
        (hid.2.2.trans ha) (by rw [hsucc]; exact hlogt i le_rfl (by omega))
        (by rw [hsucc]; exact hsp i le_rfl (by omega) hpos) (by rw [hsucc]; exact hd)
      rw [hsucc] at h4
      refine Or.inr ⟨0, by omega, s, _, s', dead, .zero, hs.items, hid.2.2.trans ha, .cons htime h1 .zero, h3, h4,
        fun c => ?_⟩
      rw [pick, if_neg hd]
      rfl

end event

end QED
