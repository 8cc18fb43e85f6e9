import Verif.Lemmas.Events
import Verif.Lemmas.Loop

set_option autoImplicit false

/-!
# Property C37: field-free regions

Over the extended reals with NaN: a zero field makes chi zero, whose logarithm is minus
infinity, and the extrapolation of the rate table multiplies it by the slope of the
first table segment.
-/

namespace QED

open MCTools Numerics

/-- The zero vector. -/
noncomputable def V3.zeroX : V3 XR := ⟨.fin 0, .fin 0, .fin 0⟩

/-- A photon in a field-free place: alive, with finite non-zero momentum and finite
optical depth `tau`. -/
structure InVacuum (field : Field XR) (p : Particle XR) (tau : ℝ) : Prop where
  kind : p.kind = .photon
  alive : p.isAlive = true
  momentum : ∃ a b c : ℝ, p.momentum = ⟨.fin a, .fin b, .fin c⟩ ∧ 0 < a * a + b * b + c * c
  depth : p.opticalDepth = .fin tau
  zero : field p.time p.position = (V3.zeroX, V3.zeroX)

theorem vacuum_chi {field : Field XR} {p : Particle XR} {tau : ℝ} (h : InVacuum field p tau) :
    bwChi field p = .fin 0 ∧ ∃ e : ℝ, 0 < e ∧ p.energy = .fin e := by
  obtain ⟨a, b, c, hm, hpos⟩ := h.momentum
  have hmag : p.momentum.mag = .fin (Real.sqrt (a * a + b * b + c * c)) := by
    rw [hm]
    simp only [V3.mag, V3.dot, XR.mul_fin, XR.add_fin]
    rw [XR.sqrt_fin _ hpos.le]
  have hne := Real.sqrt_pos.mpr hpos
  have hd : ∃ x y z : ℝ, p.direction = ⟨.fin x, .fin y, .fin z⟩ := by
    unfold Particle.direction V3.norm V3.divs
    rw [hmag, hm]
    simp only [XR.div_fin _ _ hne.ne']
    exact ⟨_, _, _, rfl⟩
  obtain ⟨x, y, z, hd⟩ := hd
  have he : p.energy = .fin (Real.sqrt (a * a + b * b + c * c)) := by
    unfold Particle.energy; rw [h.kind]; exact hmag
  refine ⟨?_, _, hne, he⟩
  unfold bwChi
  rw [hd, h.zero, he]
  simp only [V3.zeroX, V3.dot, V3.smul, V3.sub, V3.cross, V3.add, V3.mag, XR.mul_fin, XR.add_fin,
    XR.sub_fin, XR.lit_eq]
  rw [XR.sqrt_fin _ (by simp)]
  simp

/-- A rate table that starts with the points `(s0, d0)` and `(s1, d1)`. -/
structure StartsWith (cfg : BWCfg XR) (s0 d0 s1 d1 : ℝ) : Prop where
  axis0 : cfg.tAxis[0]? = some (.fin s0)
  axis1 : cfg.tAxis[1]? = some (.fin s1)
  data0 : cfg.tData[0]? = some (.fin d0)
  data1 : cfg.tData[1]? = some (.fin d1)
  lt : s0 < s1

theorem vacuum_interp {cfg : BWCfg XR} {s0 d0 s1 d1 : ℝ} (h : StartsWith cfg s0 d0 s1 d1) :
    interpolate1D cfg.tAxis cfg.tData .ninf =
      .ok (.fin d0 +. .fin (d1 - d0) *. XR.ninf) := by
  unfold interpolate1D
  simp only [rd, h.axis0, h.axis1, h.data0, h.data1, Res.ok_bind]
  rw [if_pos (show (XR.ninf <. XR.fin s0) = true from rfl)]
  have h1 : (XR.ninf -. XR.fin s0) /. (XR.fin s1 -. XR.fin s0) = XR.ninf := by
    rw [XR.sub_fin]
    have : ¬ s1 - s0 < 0 := by linarith [h.lt]
    simp [Dbl.sub, Dbl.div, XR.neg, XR.add, XR.div, this]
  rw [h1, XR.sub_fin]

theorem vacuum_step {cfg : BWCfg XR} {p : Particle XR} {tau : ℝ} (h : InVacuum cfg.field p tau)
    {s0 d0 s1 d1 : ℝ} (ht : StartsWith cfg s0 d0 s1 d1) {dt : ℝ} (hdt : cfg.dt = .fin dt)
    (l : PList XR) (r : Rng XR) :
    (d1 ≤ d0 → bwInteract cfg p l r = .ok ({ p with opticalDepth := .nan }, l, r)) ∧
    (d0 < d1 → 0 ≤ tau → bwInteract cfg p l r = .ok (p, l, r)) := by
  obtain ⟨hchi, e, he, hen⟩ := vacuum_chi h
  have hbw : ∀ logt, (XR.fin d0 +. XR.fin (d1 - d0) *. XR.ninf) = logt →
      ((p.updateOpticalDepth (bwDelta cfg.dt (.fin 0) logt p.energy)).opticalDepth <.
        Dbl.lit 0) = false →
      bwInteract cfg p l r =
        .ok (p.updateOpticalDepth (bwDelta cfg.dt (.fin 0) logt p.energy), l, r) := by
    intro logt hl hno
    unfold bwInteract
    rw [if_neg (by simp [Particle.typeName, h.kind, h.alive]), hchi]
    dsimp only
    rw [XR.log10_zero, vacuum_interp ht, hl, Res.ok_bind, if_neg (by rw [hno]; simp)]
  obtain ⟨al, hal⟩ : ∃ a : ℝ, (Units.alpha : XR) = .fin a := ⟨_, rfl⟩
  constructor
  · intro hle
    have hdel : ∀ logt, (XR.fin d0 +. XR.fin (d1 - d0) *. XR.ninf) = logt →
        bwDelta cfg.dt (.fin 0) logt p.energy = .nan := by
      intro logt hl
      subst hl
      rcases hle.lt_or_eq with hlt | heq
      · have h1 : (XR.fin (d1 - d0) *. XR.ninf) = .pinf := by
          show XR.infSign (-(d1 - d0)) = .pinf
          unfold XR.infSign
          rw [if_pos (by linarith)]
        rw [h1]
        have h2 : XR.fin d0 +. XR.pinf = .pinf := rfl
        have h3 : Dbl.pow (Dbl.lit 10 : XR) XR.pinf = .pinf := by
          simp [Dbl.pow, XR.pow]
        simp only [bwDelta, h2, h3, hal, hdt, XR.mul_fin]
        have h4 : XR.fin (dt * al * 0) *. XR.pinf = .nan := by
          show XR.infSign (dt * al * 0) = .nan
          simp [XR.infSign]
        rw [h4]; simp
      · have h1 : (XR.fin (d1 - d0) *. XR.ninf) = .nan := by
          show XR.infSign (-(d1 - d0)) = .nan
          simp [XR.infSign, heq]
        rw [h1]
        have h3 : Dbl.pow (Dbl.lit 10 : XR) XR.nan = .nan := by
          simp [Dbl.pow, XR.pow]
        rw [XR.add_nan, bwDelta, h3]
        simp
    have hd := hdel _ rfl
    have := hbw _ rfl
    rw [hd] at this
    have hop : (p.updateOpticalDepth XR.nan) = { p with opticalDepth := .nan } := by
      simp [Particle.updateOpticalDepth]
    rw [hop] at this
    exact this (by simp)
  · intro hlt htau
    have h1 : (XR.fin (d1 - d0) *. XR.ninf) = .ninf := by
      show XR.infSign (-(d1 - d0)) = .ninf
      unfold XR.infSign
      rw [if_neg (by linarith), if_pos (by linarith)]
    have h2 : (XR.fin d0 +. XR.fin (d1 - d0) *. XR.ninf) = .ninf := by rw [h1]; rfl
    have h3 : Dbl.pow (Dbl.lit 10 : XR) XR.ninf = .fin 0 := by
      simp [Dbl.pow, XR.pow]
    have hdel : bwDelta cfg.dt (.fin 0) .ninf p.energy = .fin 0 := by
      simp only [bwDelta, h3, hal, hdt, XR.mul_fin, hen]
      rw [XR.div_fin _ _ he.ne']
      simp
    have := hbw _ h2
    rw [hdel] at this
    have hop : p.updateOpticalDepth (.fin 0) = p := by
      have : p.opticalDepth -. .fin 0 = p.opticalDepth := by rw [h.depth]; simp
      unfold Particle.updateOpticalDepth
      rw [this]
    rw [hop] at this
    exact this (by rw [h.depth]; simpa using htau)

/-- What holds: if the rate table rises from its first to its second point, a photon in a
field-free place is left exactly as it is. Missing from C37: tables that start flat,
such as the one that comes with the code, or fall. -/
theorem C37_vacuum_partial {cfg : BWCfg XR} {p : Particle XR} {tau : ℝ}
    (h : InVacuum cfg.field p tau) (htau : 0 ≤ tau) {s0 d0 s1 d1 : ℝ}
    (ht : StartsWith cfg s0 d0 s1 d1) (hrise : d0 < d1) {dt : ℝ} (hdt : cfg.dt = .fin dt)
    (l : PList XR) (r : Rng XR) : bwInteract cfg p l r = .ok (p, l, r) :=
  (vacuum_step h ht hdt l r).2 hrise htau

/-- C37 is false for *every* photon and every rate table that does not rise from its
first to its second point: the optical depth becomes not-a-number. -/
theorem C37_vacuum_refuted {cfg : BWCfg XR} {p : Particle XR} {tau : ℝ}
    (h : InVacuum cfg.field p tau) {s0 d0 s1 d1 : ℝ}
    (ht : StartsWith cfg s0 d0 s1 d1) (hflat : d1 ≤ d0) {dt : ℝ} (hdt : cfg.dt = .fin dt)
    (l : PList XR) (r : Rng XR) :
    bwInteract cfg p l r = .ok ({ p with opticalDepth := .nan }, l, r) :=
  (vacuum_step h ht hdt l r).1 hflat

/-- A photon whose optical depth is not-a-number never converts, in whatever field, with
whatever tables and draws: a step leaves it alive and adds nothing. -/
theorem C37_nan_never_converts_refuted {cfg : BWCfg XR} {p : Particle XR} {l : PList XR} {r : Rng XR}
    (hd : p.opticalDepth = .nan) {p' : Particle XR} {l' : PList XR} {r' : Rng XR}
    (h : bwInteract cfg p l r = .ok (p', l', r')) : p' = p ∧ l' = l := by
  rcases bw_cases h with ⟨_, rfl, rfl, _⟩ | ⟨_, delta, logt, _, _, hc⟩
  · exact ⟨rfl, rfl⟩
  · rcases hc with ⟨_, rfl, rfl, _⟩ | ⟨hlt, _⟩
    · refine ⟨?_, rfl⟩
      unfold Particle.updateOpticalDepth
      rw [hd, XR.nan_sub, ← hd]
    · rw [hd] at hlt; simp at hlt

/-- And it stays so for the rest of the event: the photon is alive for ever. -/
theorem C37_event_refuted {cfg : SimCfg XR} {s s' : EvState XR} (hr : Reach cfg s s') {k : Nat}
    {p : Particle XR} (hk : s.list.items[k]? = some p) (hkind : p.kind = .photon)
    (hmass : p.mass = .fin 0) (ha : p.isAlive = true) (hd : p.opticalDepth = .nan) :
    ∃ q, s'.list.items[k]? = some q ∧ q.kind = .photon ∧ q.isAlive = true ∧
      q.opticalDepth = .nan := by
  let P : Particle XR → Prop := fun q => q.kind = .photon ∧ q.mass = .fin 0 ∧ q.isAlive = true ∧
    q.opticalDepth = .nan
  have key : ∃ q, s'.list.items[k]? = some q ∧ P q := by
    refine reach_induct (I := fun l _ => ∃ q, l.items[k]? = some q ∧ P q) ?_ ?_ hr
      ⟨p, hk, hkind, hmass, ha, hd⟩
    · rintro j l r q hj ⟨q0, h0, hP⟩
      rw [PList.set_items]
      by_cases hjk : j = k
      · subst hjk
        rw [h0] at hj; cases hj
        have hlt := (List.getElem?_eq_some_iff.mp h0).1
        obtain ⟨i1, i2, _, _, _, i3, i4⟩ := push_identity cfg.push cfg.field cfg.dt q
        exact ⟨pushParticle cfg.push cfg.field cfg.dt q, by simp [hlt], by
          refine ⟨i1.trans hP.1, i2.trans hP.2.1, i3.trans hP.2.2.1, i4.trans hP.2.2.2⟩⟩
      · exact ⟨q0, by rw [List.getElem?_set_ne hjk]; exact h0, hP⟩
    · rintro proc _ j l r q q' l' r' hj ⟨q0, h0, hP⟩ hint
      obtain ⟨new, he⟩ := interact_effect hint
      have hltj := (List.getElem?_eq_some_iff.mp hj).1
      have hltk := (List.getElem?_eq_some_iff.mp h0).1
      rw [items_after hj he]
      by_cases hjk : j = k
      · subst hjk
        rw [h0] at hj; cases hj
        have hq' : q' = q := by
          cases proc with
          | stochastic c =>
            rcases stochastic_cases hint with ⟨_, h, _⟩ | ⟨⟨h, _⟩, _⟩
            · exact h
            · rw [hP.2.1] at h; simp at h
          | continuous c b => exact (continuous_cases hint).1
          | breitWheeler c => exact (C37_nan_never_converts_refuted hP.2.2.2 hint).1
        subst hq'
        exact ⟨q', by rw [List.getElem?_append_left (by simpa using hltj)]; simp [hltj], hP⟩
      · refine ⟨q0, ?_, hP⟩
        rw [List.getElem?_append_left (by simpa using hltk), List.getElem?_set_ne hjk]
        exact h0
  obtain ⟨q, h1, h2, _, h3, h4⟩ := key
  exact ⟨q, h1, h2, h3, h4⟩

/-- The first two points of the table that comes with the code
(`pairprod` starts at -5 and -4.99, both with value -50) and a photon in a zero field. -/
example : ∃ (cfg : BWCfg XR) (p : Particle XR), StartsWith cfg (-5) (-50) (-4.99) (-50) ∧
    InVacuum cfg.field p 1 ∧ cfg.dt = .fin 1 := by
  refine ⟨⟨staticField V3.zeroX V3.zeroX, .fin 1, false, [.fin (-5), .fin (-4.99)],
    [.fin (-50), .fin (-50)], [], [], []⟩,
    ⟨.photon, .fin 0, .fin 0, .fin 1, .fin 0, .fin 1, false, true, V3.zeroX,
      ⟨.fin 0, .fin 0, .fin 4⟩, [], [], [], []⟩, ⟨rfl, rfl, rfl, rfl, by norm_num⟩,
    ⟨rfl, rfl, ⟨0, 0, 4, rfl, by norm_num⟩, rfl, rfl⟩, rfl⟩

/-- A table whose second value is larger than its first, and a photon in a zero field. -/
example : ∃ (cfg : BWCfg XR) (p : Particle XR), StartsWith cfg (-5) (-50) (-4.99) (-40) ∧ (-50 : ℝ) < -40 ∧
    InVacuum cfg.field p 1 ∧ (0 : ℝ) ≤ 1 ∧ cfg.dt = .fin 1 := by
  refine ⟨⟨staticField V3.zeroX V3.zeroX, .fin 1, false, [.fin (-5), .fin (-4.99)],
    [.fin (-50), .fin (-40)], [], [], []⟩,
    ⟨.photon, .fin 0, .fin 0, .fin 1, .fin 0, .fin 1, false, true, V3.zeroX,
      ⟨.fin 0, .fin 0, .fin 4⟩, [], [], [], []⟩, ⟨rfl, rfl, rfl, rfl, by norm_num⟩, by norm_num,
    ⟨rfl, rfl, ⟨0, 0, 4, rfl, by norm_num⟩, rfl, rfl⟩, zero_le_one, rfl⟩

end QED
