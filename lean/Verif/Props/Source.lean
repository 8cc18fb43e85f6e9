import Verif.Model.Source
import Verif.Lemmas.Processes

set_option linter.unusedSectionVars false
set_option autoImplicit false

/-!
# Properties C17 to C20: the particle source
-/

namespace QED

open Dbl MCTools

section generic
variable {D : Type} [Dbl D]

/-! ## C17 A source yields exactly its configured number of events, in order -/

/-- `k` successive calls of `GenerateList` on a source. -/
def Source.calls : Nat → Source D → Rng D → Res (List (PList D) × Source D × Rng D)
  | 0, s, r => .ok ([], s, r)
  | k + 1, s, r =>
    match s.generateList r with
    | .ok (l, s', r') =>
      match Source.calls k s' r' with
      | .ok (ls, s'', r'') => .ok (l :: ls, s'', r'')
      | .exit c => .exit c
      | .throw w => .throw w
      | .ub w => .ub w
    | .exit c => .exit c
    | .throw w => .throw w
    | .ub w => .ub w

/-- The particle species a configured type name stands for. -/
def speciesOf (type : String) : Option Kind :=
  if type = "Photon" ∨ type = "photon" then some .photon
  else if type = "Electron" ∨ type = "electron" then some .electron
  else if type = "Positron" ∨ type = "positron" then some .positron
  else none

/-- Mass of a species in electron masses. -/
def Kind.massOf : Kind → D
  | .photon => lit 0
  | _ => lit 1

/-- Charge of a species in units of the elementary charge. -/
def Kind.chargeOf : Kind → D
  | .photon => lit 0
  | .electron => lit (-1)
  | .positron => lit 1

/-- Configuration of a source, as given by the user. -/
structure SourceConf (D : Type) where
  type : String
  distro : String
  n : Nat
  energy1 : D
  energy2 : D
  deltaPos : D
  deltaTau : D
  deltaDir : D
  position : V3 D
  direction : V3 D
  track : Bool

/-- The source built from a configuration and raw draws. -/
def SourceConf.build (c : SourceConf D) (raw : RawDraws D) : Res (Source D) :=
  Source.new c.type c.distro c.n c.energy1 c.energy2 c.deltaPos c.deltaTau c.deltaDir c.position
    c.direction c.track raw

/-- Specification of event number `i`: one alive particle of species `k`, unit weight, at
time zero, whose energy, position and direction come from the `i`-th samples. -/
structure EventOf (s : Source D) (k : Kind) (i : Nat) (l : PList D) : Prop where
  name : l.name = toString i
  single : ∃ p, l.items = [p] ∧ (p.kind = k ∧ p.mass = k.massOf ∧ p.charge = k.chargeOf) ∧
    p.isAlive = true ∧ p.weight = lit 1 ∧ p.time = lit 0 ∧ p.tracking = s.track ∧
    ∃ x y z theta phi energy, s.xPos[i]? = some x ∧ s.yPos[i]? = some y ∧ s.zPos[i]? = some z ∧
      s.thetaDir[i]? = some theta ∧ s.phiDir[i]? = some phi ∧ s.energy[i]? = some energy ∧
      p.position = (s.rotation.mulVec ⟨x, y, z⟩).add s.position ∧
      p.momentum = (s.rotation.mulVec
        ⟨sin theta *. cos phi, sin theta *. sin phi, cos theta⟩).norm.smul energy

/-- All sample vectors have `n` entries. -/
structure Source.Full (s : Source D) : Prop where
  x : s.xPos.length = s.nPart
  y : s.yPos.length = s.nPart
  z : s.zPos.length = s.nPart
  theta : s.thetaDir.length = s.nPart
  phi : s.phiDir.length = s.nPart
  energy : s.energy.length = s.nPart

theorem sampleUniform_length {a b : D} {us xs : List D} (h : sampleUniform a b us = .ok xs) :
    xs.length = us.length := by
  unfold sampleUniform at h
  split at h
  · cases h; simp
  · cases h

theorem sampleEnergy_length {d : String} {a b : D} {us xs : List D}
    (h : Source.sampleEnergy d a b us = .ok xs) : xs.length = us.length := by
  unfold Source.sampleEnergy at h
  split at h
  · cases h; simp [sampleNorm]
  · split at h <;> exact sampleUniform_length h

theorem build_spec (c : SourceConf D) (raw : RawDraws D) (s : Source D) (h : c.build raw = .ok s) :
    ∃ phi energy, sampleUniform (lit 0) (lit 2 *. Units.pi) raw.uPhi = .ok phi ∧
      Source.sampleEnergy c.distro c.energy1 c.energy2 raw.rawE = .ok energy ∧
      s = { type := c.type, nPart := c.n, position := c.position, direction := c.direction.norm
            xPos := sampleNorm (lit 0) c.deltaPos raw.zx
            yPos := sampleNorm (lit 0) c.deltaPos raw.zy
            zPos := sampleNorm (lit 0) c.deltaTau raw.zz
            thetaDir := sampleNorm (lit 0) c.deltaDir raw.zTheta
            phiDir := phi, energy, partCount := 0
            rotation := c.direction.norm.rotateToAxis V3.ez, track := c.track } := by
  unfold SourceConf.build Source.new at h
  dsimp only at h
  rcases hp : sampleUniform (lit 0) (lit 2 *. Units.pi) raw.uPhi with phi | _ | _ | _ <;>
    rw [hp] at h
  · rw [Res.ok_bind] at h
    rcases he : Source.sampleEnergy c.distro c.energy1 c.energy2 raw.rawE with en | _ | _ | _ <;>
      rw [he] at h
    · rw [Res.ok_bind] at h
      cases h
      exact ⟨phi, en, rfl, rfl, rfl⟩
    all_goals cases h
  all_goals cases h

theorem build_full (c : SourceConf D) (raw : RawDraws D) (s : Source D) (h : c.build raw = .ok s)
    (hr : raw.Sized c.n) : s.Full ∧ s.nPart = c.n ∧ s.partCount = 0 ∧ s.type = c.type := by
  obtain ⟨phi, energy, hphi, hen, rfl⟩ := build_spec c raw s h
  obtain ⟨h1, h2, h3, h4, h5, h6⟩ := hr
  refine ⟨⟨?_, ?_, ?_, ?_, ?_, ?_⟩, rfl, rfl, rfl⟩ <;> dsimp only
  · simpa [sampleNorm] using h1
  · simpa [sampleNorm] using h2
  · simpa [sampleNorm] using h3
  · simpa [sampleNorm] using h4
  · rw [sampleUniform_length hphi, h5]
  · rw [sampleEnergy_length hen, h6]

/-- The two comparisons of literals the code relies on: `-1.0 == -1.0` and `1.0 != -1.0`. -/
structure SaneLits (D : Type) [Dbl D] : Prop where
  neg : ((lit (-1) : D) ==. lit (-1)) = true
  pos : ((lit 1 : D) ==. lit (-1)) = false

theorem saneReal : SaneLits ℝ := ⟨by simp, by simp; norm_num⟩
theorem saneXR : SaneLits XR := ⟨by simp, by simp; norm_num⟩

theorem mkParticle_spec (hl : SaneLits D) (s : Source D) (k : Kind) (hk : speciesOf s.type = some k)
    (e : D) (pos dir : V3 D) (u : D) :
    ∃ p, s.mkParticle e pos dir u = .ok p ∧
      (p.kind = k ∧ p.mass = k.massOf ∧ p.charge = k.chargeOf) ∧ p.isAlive = true ∧
      p.weight = lit 1 ∧ p.time = lit 0 ∧ p.tracking = s.track ∧ p.position = pos ∧
      p.momentum = dir.norm.smul e := by
  unfold speciesOf at hk
  unfold Source.mkParticle
  split at hk
  · next h => cases hk; rw [if_pos h]; exact ⟨_, rfl, ⟨rfl, rfl, rfl⟩, rfl, rfl, rfl, rfl, rfl, rfl⟩
  · next h =>
    rw [if_neg h]
    split at hk
    · next h' =>
      cases hk; rw [if_pos h']
      refine ⟨_, rfl, ⟨?_, rfl, rfl⟩, rfl, rfl, rfl, rfl, rfl, rfl⟩
      simp [Particle.newLeptonE, Particle.new, Particle.leptonKind, hl.neg]
    · next h' =>
      rw [if_neg h']
      split at hk
      · next h'' =>
        cases hk; rw [if_pos h'']
        refine ⟨_, rfl, ⟨?_, rfl, rfl⟩, rfl, rfl, rfl, rfl, rfl, rfl⟩
        simp [Particle.newLeptonE, Particle.new, Particle.leptonKind, hl.pos]
      · cases hk

/-- One call, before the source is depleted. -/
theorem generateList_step (hl : SaneLits D) (s : Source D) (k : Kind)
    (hk : speciesOf s.type = some k) (hf : s.Full) (hc : s.partCount < s.nPart) (r : Rng D) :
    ∃ l r', s.generateList r = .ok (l, { s with partCount := s.partCount + 1 }, r') ∧
      EventOf s k s.partCount l := by
  have hx : s.partCount < s.xPos.length := by rw [hf.x]; exact hc
  have hy : s.partCount < s.yPos.length := by rw [hf.y]; exact hc
  have hz : s.partCount < s.zPos.length := by rw [hf.z]; exact hc
  have ht : s.partCount < s.thetaDir.length := by rw [hf.theta]; exact hc
  have hp : s.partCount < s.phiDir.length := by rw [hf.phi]; exact hc
  have he : s.partCount < s.energy.length := by rw [hf.energy]; exact hc
  unfold Source.generateList
  rw [if_neg (by omega)]
  dsimp only
  rw [rd_ok hx, Res.ok_bind, rd_ok hy, Res.ok_bind, rd_ok hz, Res.ok_bind, rd_ok ht, Res.ok_bind,
    rd_ok hp, Res.ok_bind, rd_ok he, Res.ok_bind]
  obtain ⟨p, hp1, hp2, hp3, hp4, hp5, hp6, hp7, hp8⟩ := mkParticle_spec hl s k hk
    s.energy[s.partCount] ((s.rotation.mulVec ⟨s.xPos[s.partCount], s.yPos[s.partCount],
      s.zPos[s.partCount]⟩).add s.position)
    (s.rotation.mulVec (Source.sphere s.thetaDir[s.partCount] s.phiDir[s.partCount])) r.next.1
  rw [hp1, Res.ok_bind]
  refine ⟨_, _, rfl, rfl, p, ?_, hp2, hp3, hp4, hp5, hp6, _, _, _, _, _, _,
    List.getElem?_eq_getElem hx, List.getElem?_eq_getElem hy, List.getElem?_eq_getElem hz,
    List.getElem?_eq_getElem ht, List.getElem?_eq_getElem hp, List.getElem?_eq_getElem he,
    hp7, hp8⟩
  simp [PList.add, PList.new, PList.defaultMax]

theorem calls_spec (hl : SaneLits D) (k : Kind) : ∀ (m : Nat) (s : Source D) (r : Rng D),
    speciesOf s.type = some k → s.Full → s.partCount + m ≤ s.nPart →
    ∃ ls r', s.calls m r = .ok (ls, { s with partCount := s.partCount + m }, r') ∧
      ls.length = m ∧ ∀ i l, ls[i]? = some l → EventOf s k (s.partCount + i) l := by
  intro m
  induction m with
  | zero => intro s r _ _ _; exact ⟨[], r, rfl, rfl, by simp⟩
  | succ m ih =>
    intro s r hk hf hc
    obtain ⟨l, r', h1, h2⟩ := generateList_step hl s k hk hf (by omega) r
    obtain ⟨ls, r'', h3, h4, h5⟩ := ih { s with partCount := s.partCount + 1 } r' hk
      ⟨hf.x, hf.y, hf.z, hf.theta, hf.phi, hf.energy⟩ (by dsimp only; omega)
    refine ⟨l :: ls, r'', ?_, by simp [h4], ?_⟩
    · rw [Source.calls, h1]
      dsimp only
      rw [h3]
      dsimp only
      rw [show s.partCount + 1 + m = s.partCount + (m + 1) by omega]
    · intro i l' hi
      cases i with
      | zero => simp at hi; subst hi; exact h2
      | succ i =>
        simp at hi
        have := h5 i l' hi
        dsimp only at this
        rw [show s.partCount + 1 + i = s.partCount + (i + 1) by omega] at this
        exact ⟨this.name, this.single⟩

/-- Any number `k ≤ n` of calls gives `k` events, the `i`-th built from the `i`-th samples. -/
theorem C17_events (hl : SaneLits D) (c : SourceConf D) (raw : RawDraws D) (s : Source D)
    (sp : Kind) (h : c.build raw = .ok s) (hr : raw.Sized c.n) (hk : speciesOf c.type = some sp)
    (r : Rng D) (k : Nat) (hkn : k ≤ c.n) :
    ∃ ls s' r', s.calls k r = .ok (ls, s', r') ∧ ls.length = k ∧
      ∀ i l, ls[i]? = some l → EventOf s sp i l := by
  obtain ⟨hf, h1, h2, h3⟩ := build_full c raw s h hr
  obtain ⟨ls, r', h4, h5, h6⟩ := calls_spec hl sp k s r (by rw [h3]; exact hk) hf (by omega)
  refine ⟨ls, _, r', h4, h5, fun i l hi => ?_⟩
  have := h6 i l hi
  rwa [h2, Nat.zero_add] at this

/-- Any call after the `n`-th ends the program with exit code 1. -/
theorem C17_depleted (hl : SaneLits D) (c : SourceConf D) (raw : RawDraws D) (s : Source D)
    (sp : Kind) (h : c.build raw = .ok s) (hr : raw.Sized c.n) (hk : speciesOf c.type = some sp)
    (r : Rng D) (k : Nat) (hkn : c.n < k) : s.calls k r = .exit 1 := by
  obtain ⟨hf, h1, h2, h3⟩ := build_full c raw s h hr
  have key : ∀ (m : Nat) (s : Source D) (r : Rng D), speciesOf s.type = some sp → s.Full →
      s.partCount ≤ s.nPart → s.nPart < s.partCount + m → s.calls m r = .exit 1 := by
    intro m
    induction m with
    | zero => intro s r _ _ _ _; omega
    | succ m ih =>
      intro s r hk hf hc hm
      by_cases he : s.partCount = s.nPart
      · rw [Source.calls]
        have : s.generateList r = .exit 1 := by unfold Source.generateList; rw [if_pos he]
        rw [this]
      · obtain ⟨l, r', h1, _⟩ := generateList_step hl s sp hk hf (by omega) r
        rw [Source.calls, h1]
        dsimp only
        rw [ih { s with partCount := s.partCount + 1 } r' hk
          ⟨hf.x, hf.y, hf.z, hf.theta, hf.phi, hf.energy⟩ (by dsimp only; omega)
          (by dsimp only; omega)]
  exact key k s r (by rw [h3]; exact hk) hf (by omega) (by omega)

/-- A source of unknown type never returns a list either: it ends the program. -/
theorem C17_unknown_type (c : SourceConf D) (raw : RawDraws D) (s : Source D)
    (h : c.build raw = .ok s) (hr : raw.Sized c.n) (hk : speciesOf c.type = none) (r : Rng D) :
    ∃ code, s.generateList r = .exit code := by
  obtain ⟨hf, h1, h2, h3⟩ := build_full c raw s h hr
  by_cases he : s.partCount = s.nPart
  · exact ⟨1, by unfold Source.generateList; rw [if_pos he]⟩
  · have hc : s.partCount < s.nPart := by omega
    have hx : s.partCount < s.xPos.length := by rw [hf.x]; exact hc
    have hy : s.partCount < s.yPos.length := by rw [hf.y]; exact hc
    have hz : s.partCount < s.zPos.length := by rw [hf.z]; exact hc
    have ht : s.partCount < s.thetaDir.length := by rw [hf.theta]; exact hc
    have hp : s.partCount < s.phiDir.length := by rw [hf.phi]; exact hc
    have hen : s.partCount < s.energy.length := by rw [hf.energy]; exact hc
    refine ⟨-1, ?_⟩
    unfold Source.generateList
    rw [if_neg he]
    dsimp only
    rw [rd_ok hx, Res.ok_bind, rd_ok hy, Res.ok_bind, rd_ok hz, Res.ok_bind, rd_ok ht, Res.ok_bind,
      rd_ok hp, Res.ok_bind, rd_ok hen, Res.ok_bind]
    unfold speciesOf at hk
    split at hk
    · cases hk
    · next a1 =>
      split at hk
      · cases hk
      · next a2 =>
        split at hk
        · cases hk
        · next a3 =>
          unfold Source.mkParticle
          rw [h3, if_neg a1, if_neg a2, if_neg a3]
          rfl

end generic

namespace SourceWitness

/-- A source of two electrons of energy 5 along `z`. -/
noncomputable def conf : SourceConf ℝ :=
  { type := "Electron", distro := "mono", n := 2, energy1 := 5, energy2 := 5, deltaPos := 1
    deltaTau := 0, deltaDir := 0, position := ⟨1, 2, 3⟩, direction := ⟨0, 0, 4⟩, track := false }

/-- Raw draws for two particles. -/
noncomputable def raw : RawDraws ℝ :=
  { zx := [0, 1], zy := [1, -1], zz := [0, 0], zTheta := [1, 2], uPhi := [0, 1 / 2]
    rawE := [1 / 2, 1 / 4] }

theorem sized : raw.Sized conf.n := ⟨rfl, rfl, rfl, rfl, rfl, rfl⟩

theorem two_pi : (lit 0 <=. (lit 2 *. Units.pi : ℝ)) = true := by
  simp [Units.pi]; norm_num

/-- Building a source over the reals succeeds when the energy sampling does. -/
theorem build_ok (c : SourceConf ℝ) (raw : RawDraws ℝ)
    (he : ∃ e, Source.sampleEnergy c.distro c.energy1 c.energy2 raw.rawE = .ok e) :
    ∃ s, c.build raw = .ok s := by
  obtain ⟨e, he⟩ := he
  unfold SourceConf.build Source.new
  dsimp only
  have : ∃ phi, sampleUniform (lit 0) (lit 2 *. Units.pi : ℝ) raw.uPhi = .ok phi := by
    unfold sampleUniform; rw [if_pos two_pi]; exact ⟨_, rfl⟩
  obtain ⟨phi, hp⟩ := this
  rw [hp, Res.ok_bind, he, Res.ok_bind]
  exact ⟨_, rfl⟩

theorem built : ∃ s, conf.build raw = .ok s := by
  apply build_ok
  unfold Source.sampleEnergy
  rw [if_neg (by decide), if_neg (by decide)]
  unfold sampleUniform
  rw [if_pos (by simp [conf])]
  exact ⟨_, rfl⟩

end SourceWitness

open SourceWitness in
/-- The hypotheses of the C17 theorems can be met. -/
example : SaneLits ℝ ∧ (∃ s, conf.build raw = .ok s) ∧ raw.Sized conf.n ∧
    speciesOf conf.type = some .electron := ⟨saneReal, built, sized, by decide⟩

open SourceWitness in
example : ∃ s, ({ conf with type := "Muon" } : SourceConf ℝ).build raw = .ok s ∧
    speciesOf "Muon" = none := by
  obtain ⟨e, _, he, _⟩ := build_spec _ _ _ built.choose_spec
  obtain ⟨s, hs⟩ := build_ok { conf with type := "Muon" } raw (by
    obtain ⟨phi, e, _, he, _⟩ := build_spec _ _ _ built.choose_spec
    exact ⟨e, he⟩)
  exact ⟨s, hs, by decide⟩

/-! ## C18 Source beam points along the configured direction -/

/-- What `RotateToAxis(z)` does to `z`, for a unit vector not antiparallel to `z`: it
mirrors the transverse part of the unit vector. -/
theorem rotate_ez {d : V3 ℝ} (hd : d.dot d = 1)
    (h : ¬ (d.norm.add (V3.ez : V3 ℝ).norm).mag2 ≤ 1e-10) :
    (d.rotateToAxis V3.ez).mulVec V3.ez = ⟨-d.x, -d.y, d.z⟩ := by
  have hn : d.norm = d := V3.norm_of_unit hd
  have hz : (V3.ez : V3 ℝ).norm = V3.ez := V3.norm_of_unit (by simp [V3.dot])
  rw [rotateToAxis_eq_rodrigues h]
  rw [hn, hz] at h ⊢
  have h1 := one_add_dot_pos hd (by simp [V3.dot]) h
  have hdz : d.dot V3.ez = d.z := by simp [V3.dot]
  rw [hdz] at h1 ⊢
  obtain ⟨s, hs⟩ : ∃ s, s = 1 / (1 + d.z) := ⟨_, rfl⟩
  have hs1 : s * (1 + d.z) = 1 := by rw [hs]; field_simp
  simp only [V3.dot, real_add, real_mul] at hd
  ext <;> simp [rodrigues, ← hs, M3.mulVec, M3.add, M3.mul, M3.muls, M3.acc3, skewMat, M3.ideneity,
        M3.zeros, V3.cross, -one_div]
  linear_combination (-s) * hd + (d.z - 1) * hs1

theorem rotate_ez_anti {d : V3 ℝ} (h : (d.norm.add (V3.ez : V3 ℝ).norm).mag2 ≤ 1e-10) :
    (d.rotateToAxis V3.ez).mulVec V3.ez = ⟨0, 0, -1⟩ := by
  rw [rotateToAxis_eq_diag h]
  ext <;> simp [M3.mulVec, M3.acc3]

/-- The full statement of C18 for one configuration: every particle the source can emit
with positive energy travels along the configured direction. -/
def BeamAligned (c : SourceConf ℝ) : Prop :=
  ∀ (raw : RawDraws ℝ) (s : Source ℝ) (r : Rng ℝ) (k : Nat) (ls : List (PList ℝ)) (s' : Source ℝ)
    (r' : Rng ℝ), c.build raw = .ok s → raw.Sized c.n → (∀ e ∈ s.energy, 0 < e) →
    s.calls k r = .ok (ls, s', r') →
    ∀ l ∈ ls, ∀ p ∈ l.items, IsUnitAlong p.direction.toVec c.direction.toVec

/-- The direction in which a source without divergence really sends its particles. -/
def MirroredBeam (c : SourceConf ℝ) : V3 ℝ → Prop := fun v =>
  let d := c.direction.norm
  (1e-10 < (d.add V3.ez).mag2 → v = ⟨-d.x, -d.y, d.z⟩) ∧
    ((d.add V3.ez).mag2 ≤ 1e-10 → v = ⟨0, 0, -1⟩)

theorem sampleNorm_zero {raw : List ℝ} {i : Nat} {t : ℝ}
    (h : (sampleNorm (lit 0) 0 raw)[i]? = some t) : t = 0 := by
  simp [sampleNorm, List.getElem?_replicate] at h
  exact h.2.symm

/-- The direction of every particle emitted by a source without divergence whose energies
are positive: the configured direction with its components transverse to `z` reversed. -/
theorem C18_mirrored (c : SourceConf ℝ) (hd : c.direction.toVec ≠ 0) (h0 : c.deltaDir = 0)
    (sp : Kind) (hk : speciesOf c.type = some sp)
    (raw : RawDraws ℝ) (s : Source ℝ) (r : Rng ℝ) (k : Nat) (ls : List (PList ℝ))
    (s' : Source ℝ) (r' : Rng ℝ) (hb : c.build raw = .ok s) (hr : raw.Sized c.n)
    (hE : ∀ e ∈ s.energy, 0 < e) (hc : s.calls k r = .ok (ls, s', r')) :
    ∀ l ∈ ls, ∀ p ∈ l.items, MirroredBeam c p.direction := by
  have hkn : k ≤ c.n := by
    by_contra hcon
    rw [C17_depleted saneReal c raw s sp hb hr hk r k (by omega)] at hc
    cases hc
  obtain ⟨ls2, s2, r2, h1, _, h3⟩ := C17_events saneReal c raw s sp hb hr hk r k hkn
  rw [hc] at h1
  cases h1
  intro l hl p hp
  obtain ⟨i, hi⟩ := List.mem_iff_getElem?.mp hl
  obtain ⟨q, hq, -, -, -, -, -, x, y, z, theta, phi, e, -, -, -, ht, -, he, -, hm⟩ :=
    (h3 i l hi).single
  rw [hq] at hp
  have hpq : p = q := by simpa using hp
  subst hpq
  have he0 : 0 < e := hE e (List.mem_of_getElem? he)
  have hd' : c.direction ≠ ⟨0, 0, 0⟩ := by
    intro h; apply hd; rw [h]; ext j; fin_cases j <;> simp [V3.toVec]
  have hu := V3.norm_dot_self hd'
  have hun := V3.norm_of_unit hu
  have hez : (V3.ez : V3 ℝ).norm = V3.ez := V3.norm_of_unit (by simp [V3.dot])
  obtain ⟨phis, es, -, -, rfl⟩ := build_spec c raw s hb
  dsimp only at ht hm
  rw [h0] at ht
  have ht0 := sampleNorm_zero ht
  subst ht0
  have hsp : (⟨sin 0 *. cos phi, sin 0 *. sin phi, cos 0⟩ : V3 ℝ) = V3.ez := by simp
  rw [hsp] at hm
  have hdir : p.direction = p.momentum.norm := rfl
  constructor
  · intro hlt
    have hn : ¬ ((c.direction.norm).norm.add (V3.ez : V3 ℝ).norm).mag2 ≤ 1e-10 := by
      rw [hun, hez]; exact not_le.mpr hlt
    rw [rotate_ez hu hn] at hm
    have hu2 : (⟨-c.direction.norm.x, -c.direction.norm.y, c.direction.norm.z⟩ : V3 ℝ).dot
        ⟨-c.direction.norm.x, -c.direction.norm.y, c.direction.norm.z⟩ = 1 := by
      rw [← hu]; simp [V3.dot]
    rw [hdir, hm, V3.norm_of_unit hu2, V3.norm_smul_pos hu2 he0]
  · intro hle
    have hn : ((c.direction.norm).norm.add (V3.ez : V3 ℝ).norm).mag2 ≤ 1e-10 := by
      rw [hun, hez]; exact hle
    rw [rotate_ez_anti hn] at hm
    have hu2 : (⟨0, 0, -1⟩ : V3 ℝ).dot ⟨0, 0, -1⟩ = 1 := by simp [V3.dot]
    rw [hdir, hm, V3.norm_of_unit hu2, V3.norm_smul_pos hu2 he0]

/-- Draws with which any configuration with positive energies emits positive energies. -/
def zeroRaw (n : Nat) : RawDraws ℝ :=
  { zx := List.replicate n 0, zy := List.replicate n 0, zz := List.replicate n 0
    zTheta := List.replicate n 0, uPhi := List.replicate n 0, rawE := List.replicate n 0 }

theorem zeroRaw_sized (n : Nat) : (zeroRaw n).Sized n := by
  simp [RawDraws.Sized, zeroRaw]

theorem zeroRaw_energy (distro : String) (e1 e2 : ℝ) (h : e1 ≤ e2) (n : Nat) :
    Source.sampleEnergy distro e1 e2 (zeroRaw n).rawE = .ok (List.replicate n e1) := by
  unfold Source.sampleEnergy sampleUniform sampleNorm
  have h' : (e1 <=. e2) = true := by simpa using h
  simp [h', zeroRaw]

/-- A source without divergence is aligned with its configured direction exactly when that
direction is parallel or antiparallel to `z`. -/
theorem C18_aligned_iff (c : SourceConf ℝ) (hd : c.direction.toVec ≠ 0) (h0 : c.deltaDir = 0)
    (sp : Kind) (hk : speciesOf c.type = some sp) (hn : 1 ≤ c.n)
    (hE : 0 < c.energy1) (hE2 : c.energy1 ≤ c.energy2) :
    BeamAligned c ↔ c.direction.x = 0 ∧ c.direction.y = 0 := by
  have hd' : c.direction ≠ ⟨0, 0, 0⟩ := by
    intro h; apply hd; rw [h]; ext j; fin_cases j <;> simp [V3.toVec]
  have hmag := V3.mag_pos hd'
  have hu := V3.norm_dot_self hd'
  -- alignment with the configured direction is equality with its unit vector
  have halign : ∀ v : V3 ℝ, v.dot v = 1 → IsUnitAlong v.toVec c.direction.toVec →
      v = c.direction.norm := by
    intro v hv ⟨_, a, ha, hva⟩
    rw [← toVec_smul] at hva
    rw [toVec_injective hva, V3.norm_smul_pos hv ha]
  have hnr := V3.norm_real c.direction
  constructor
  · intro hA
    obtain ⟨s, hs⟩ := SourceWitness.build_ok c (zeroRaw c.n)
      ⟨_, zeroRaw_energy c.distro c.energy1 c.energy2 hE2 c.n⟩
    have hpos : ∀ e ∈ s.energy, 0 < e := by
      obtain ⟨phis, es, -, he, rfl⟩ := build_spec c _ s hs
      rw [zeroRaw_energy _ _ _ hE2] at he
      cases he
      intro e he
      rw [(List.mem_replicate.mp he).2]; exact hE
    obtain ⟨ls, s', r', h1, h2, h3⟩ := C17_events saneReal c _ s sp hs (zeroRaw_sized c.n) hk
      ⟨fun _ => 0, 0⟩ 1 hn
    obtain ⟨l, rfl⟩ := List.length_eq_one_iff.mp h2
    obtain ⟨p, hp, -⟩ := (h3 0 l rfl).single
    have hm := C18_mirrored c hd h0 sp hk _ s _ 1 _ s' r' hs (zeroRaw_sized c.n) hpos h1 l
      (by simp) p (by simp [hp])
    have ha := hA _ s _ 1 _ s' r' hs (zeroRaw_sized c.n) hpos h1 l (by simp) p (by simp [hp])
    by_cases hc : (c.direction.norm.add V3.ez).mag2 ≤ 1e-10
    · have hv := hm.2 hc
      have e := halign _ (by rw [hv]; simp [V3.dot]) ha
      rw [hv, hnr] at e
      have ex := congrArg V3.x e
      have ey := congrArg V3.y e
      simp only at ex ey
      constructor
      · field_simp at ex; linarith
      · field_simp at ey; linarith
    · have hv := hm.1 (not_le.mp hc)
      have e := halign _ (by rw [hv, ← hu]; simp [V3.dot]) ha
      rw [hv, hnr] at e
      have ex := congrArg V3.x e
      have ey := congrArg V3.y e
      simp only at ex ey
      constructor
      · field_simp at ex; linarith
      · field_simp at ey; linarith
  · rintro ⟨hx, hy⟩ raw s r k ls s' r' hb hr hpos hc l hl p hp
    have hm := C18_mirrored c hd h0 sp hk raw s r k ls s' r' hb hr hpos hc l hl p hp
    have key : p.direction = c.direction.norm := by
      by_cases hcl : (c.direction.norm.add V3.ez).mag2 ≤ 1e-10
      · have hv := hm.2 hcl
        have hu' := hu
        rw [hnr] at hcl hu' ⊢
        rw [hv]
        rw [hx, hy] at *
        simp [V3.dot, V3.add, V3.mag2] at hcl hu'
        have : c.direction.z / c.direction.mag = -1 := by
          have h2 : (c.direction.z / c.direction.mag - 1) * (c.direction.z / c.direction.mag + 1) = 0 := by
            linarith
          rcases mul_eq_zero.mp h2 with h | h
          · rw [sub_eq_zero] at h
            rw [h] at hcl; norm_num at hcl
          · linarith
        rw [this]; simp
      · have hv := hm.1 (not_le.mp hcl)
        rw [hv, hnr, hx, hy]; simp
    rw [key]
    refine ⟨by rw [← mag_eq, V3.mag_of_unit hu], c.direction.mag, hmag, ?_⟩
    rw [← toVec_smul, V3.norm_smul_mag hd']

/-- What holds of C18: directions along `z`. Missing: every other direction. -/
theorem C18_along_z_partial (c : SourceConf ℝ) (w : ℝ) (hw : w ≠ 0)
    (hd : c.direction = ⟨0, 0, w⟩) (h0 : c.deltaDir = 0)
    (sp : Kind) (hk : speciesOf c.type = some sp) (hn : 1 ≤ c.n)
    (hE : 0 < c.energy1) (hE2 : c.energy1 ≤ c.energy2) : BeamAligned c := by
  refine (C18_aligned_iff c ?_ h0 sp hk hn hE hE2).mpr (by rw [hd]; simp)
  rw [hd]; intro h
  exact hw (by simpa [V3.toVec] using congrFun h 2)

/-- The full statement is false: a source along `x` sends its particles along `-x`. -/
theorem C18_refuted :
    ¬ ∀ c : SourceConf ℝ, c.direction.toVec ≠ 0 → c.deltaDir = 0 → BeamAligned c := by
  intro h
  have hd : (⟨1, 0, 0⟩ : V3 ℝ).toVec ≠ 0 := by
    intro h; simpa [V3.toVec] using congrFun h 0
  have := (C18_aligned_iff { SourceWitness.conf with direction := ⟨1, 0, 0⟩ } hd rfl .electron
    (by decide) (by simp [SourceWitness.conf]) (by simp [SourceWitness.conf])
    (by simp [SourceWitness.conf])).mp (h _ hd rfl)
  simp at this

/-! ## C19 Source particles have the sampled energy -/

/-- The full statement of C19: whatever a source emits as its `i`-th event has the `i`-th
sampled energy. -/
def ReportsEnergy (s : Source ℝ) : Prop :=
  ∀ (k : Nat) (r : Rng ℝ) (ls : List (PList ℝ)) (s' : Source ℝ) (r' : Rng ℝ),
    s.calls k r = .ok (ls, s', r') → ∀ (i : Nat) (l : PList ℝ) (e : ℝ), ls[i]? = some l →
      s.energy[i]? = some e → ∀ p ∈ l.items, p.energy = e

/-- The rotation of a built source turns unit vectors into unit vectors. -/
theorem rotation_unit {d v : V3 ℝ} (hd : d ≠ ⟨0, 0, 0⟩) (hv : v.dot v = 1) :
    ((d.rotateToAxis V3.ez).mulVec v).dot ((d.rotateToAxis V3.ez).mulVec v) = 1 := by
  have hR := rotateToAxis_isRotation (v := d) (axis := V3.ez) hd (by simp)
  rw [dot_eq, toVec_mulVec, Matrix.dotProduct_mulVec, ← Matrix.mulVec_transpose,
    Matrix.mulVec_mulVec, hR.1, Matrix.one_mulVec, ← dot_eq, hv]

theorem sphere_unit (t f : ℝ) : (Source.sphere t f).dot (Source.sphere t f) = 1 := by
  simp only [Source.sphere, V3.dot, real_add, real_mul, real_sin, real_cos]
  have h1 := Real.sin_sq_add_cos_sq t
  have h2 := Real.sin_sq_add_cos_sq f
  linear_combination (Real.sin t) ^ 2 * h2 + h1

/-- The energy the particles of a source report, for every sampled energy: its absolute
value for photons, `sqrt(1 + E²)` for electrons and positrons. -/
theorem C19_reported (c : SourceConf ℝ) (hd : c.direction.toVec ≠ 0) (sp : Kind)
    (hk : speciesOf c.type = some sp) (raw : RawDraws ℝ) (s : Source ℝ) (hb : c.build raw = .ok s)
    (hr : raw.Sized c.n) (k : Nat) (r : Rng ℝ) (ls : List (PList ℝ)) (s' : Source ℝ) (r' : Rng ℝ)
    (hc : s.calls k r = .ok (ls, s', r')) (i : Nat) (l : PList ℝ) (e : ℝ) (hi : ls[i]? = some l)
    (he : s.energy[i]? = some e) :
    ∀ p ∈ l.items, p.energy = if sp = .photon then |e| else Real.sqrt (1 + e ^ 2) := by
  have hkn : k ≤ c.n := by
    by_contra hcon
    rw [C17_depleted saneReal c raw s sp hb hr hk r k (by omega)] at hc
    cases hc
  obtain ⟨ls2, s2, r2, h1, _, h3⟩ := C17_events saneReal c raw s sp hb hr hk r k hkn
  rw [hc] at h1
  cases h1
  intro p hp
  have hd' : c.direction ≠ ⟨0, 0, 0⟩ := by
    intro h; apply hd; rw [h]; ext j; fin_cases j <;> simp [V3.toVec]
  obtain ⟨q, hq, ⟨hkind, hmass, -⟩, -, -, -, -, x, y, z, theta, phi, e', -, -, -, -, -, he', -,
    hm⟩ := (h3 i l hi).single
  rw [hq] at hp
  have hpq : p = q := by simpa using hp
  subst hpq
  rw [he] at he'
  cases he'
  obtain ⟨phis, es, -, -, rfl⟩ := build_spec c raw s hb
  dsimp only at hm
  have hu := rotation_unit (V3.norm_ne_zero hd') (sphere_unit theta phi)
  rw [show (⟨sin theta *. cos phi, sin theta *. sin phi, cos theta⟩ : V3 ℝ) =
    Source.sphere theta phi from rfl, V3.norm_of_unit hu] at hm
  have hmag : p.momentum.mag = |e| := by rw [hm, V3.smul_unit_mag hu]
  have hmag2 : p.momentum.mag2 = e ^ 2 := by
    have := V3.mag_sq p.momentum
    rw [hmag, sq_abs] at this
    exact this.symm
  cases sp
  · simp [Particle.energy, hkind, hmag]
  · simp [Particle.energy, Particle.gamma, hkind, hmass, Kind.massOf, hmag2]
  · simp [Particle.energy, Particle.gamma, hkind, hmass, Kind.massOf, hmag2]

/-- What holds of C19: photons with non-negative sampled energies. Missing: electrons,
positrons (always wrong, see below) and photons with a negative sample. -/
theorem C19_photons_partial (c : SourceConf ℝ) (hd : c.direction.toVec ≠ 0)
    (hk : speciesOf c.type = some .photon) (raw : RawDraws ℝ) (s : Source ℝ)
    (hb : c.build raw = .ok s) (hr : raw.Sized c.n) (hE : ∀ e ∈ s.energy, 0 ≤ e) :
    ReportsEnergy s := by
  intro k r ls s' r' hc i l e hi he p hp
  rw [C19_reported c hd .photon hk raw s hb hr k r ls s' r' hc i l e hi he p hp, if_pos rfl,
    abs_of_nonneg (hE e (List.mem_of_getElem? he))]

/-- Electrons and positrons never report the sampled energy: for every sample the reported
energy is larger. -/
theorem C19_leptons_refuted (c : SourceConf ℝ) (hd : c.direction.toVec ≠ 0) (sp : Kind)
    (hk : speciesOf c.type = some sp) (hsp : sp ≠ .photon) (raw : RawDraws ℝ) (s : Source ℝ)
    (hb : c.build raw = .ok s) (hr : raw.Sized c.n) (hn : 1 ≤ c.n) :
    ¬ ReportsEnergy s ∧
    ∀ (k : Nat) (r : Rng ℝ) (ls : List (PList ℝ)) (s' : Source ℝ) (r' : Rng ℝ),
      s.calls k r = .ok (ls, s', r') → ∀ (i : Nat) (l : PList ℝ) (e : ℝ), ls[i]? = some l →
        s.energy[i]? = some e → ∀ p ∈ l.items, e < p.energy := by
  have key : ∀ (k : Nat) (r : Rng ℝ) (ls : List (PList ℝ)) (s' : Source ℝ) (r' : Rng ℝ),
      s.calls k r = .ok (ls, s', r') → ∀ (i : Nat) (l : PList ℝ) (e : ℝ), ls[i]? = some l →
        s.energy[i]? = some e → ∀ p ∈ l.items, e < p.energy := by
    intro k r ls s' r' hc i l e hi he p hp
    rw [C19_reported c hd sp hk raw s hb hr k r ls s' r' hc i l e hi he p hp, if_neg hsp]
    exact Real.lt_sqrt_of_sq_lt (by linarith)
  refine ⟨fun hrep => ?_, key⟩
  obtain ⟨ls, s', r', h1, h2, h3⟩ := C17_events saneReal c raw s sp hb hr hk ⟨fun _ => 0, 0⟩ 1 hn
  obtain ⟨l, rfl⟩ := List.length_eq_one_iff.mp h2
  obtain ⟨p, hp, -, -, -, -, -, x, y, z, t, f, e, -, -, -, -, -, he, -⟩ := (h3 0 l rfl).single
  have a := hrep 1 _ _ s' r' h1 0 l e rfl he p (by simp [hp])
  have b := key 1 _ _ s' r' h1 0 l e rfl he p (by simp [hp])
  linarith

open SourceWitness in
/-- Both kinds of source exist. -/
example : ∃ s, conf.build raw = .ok s ∧ speciesOf conf.type = some .electron ∧
    conf.direction.toVec ≠ 0 := by
  obtain ⟨s, hs⟩ := built
  exact ⟨s, hs, by decide, fun h => by simpa [V3.toVec, conf] using congrFun h 2⟩

open SourceWitness in
example : ∃ s, ({ conf with type := "photon" } : SourceConf ℝ).build raw = .ok s ∧
    speciesOf "photon" = some .photon ∧ ∀ e ∈ s.energy, 0 ≤ e := by
  obtain ⟨s, hs⟩ := build_ok { conf with type := "photon" } raw (by
    obtain ⟨phi, e, _, he, _⟩ := build_spec _ _ _ built.choose_spec
    exact ⟨e, he⟩)
  refine ⟨s, hs, by decide, ?_⟩
  obtain ⟨phi, e, _, he, rfl⟩ := build_spec _ _ _ hs
  unfold Source.sampleEnergy sampleUniform at he
  simp [conf, raw] at he
  subst he
  simp

/-! ## C20 Mono-energetic sources -/

/-- The full statement of C20 for one configuration: building succeeds and every sampled
energy is the mean. -/
def MonoEnergetic (c : SourceConf ℝ) : Prop :=
  ∀ raw : RawDraws ℝ, raw.Sized c.n → (∀ u ∈ raw.rawE, 0 ≤ u ∧ u < 1) →
    ∃ s, c.build raw = .ok s ∧ ∀ e ∈ s.energy, e = c.energy1

/-- With a mean above the spread (in particular with the default spread of zero and any
positive mean) a mono-energetic source violates the precondition of
`std::uniform_real_distribution`. -/
theorem C20_default_spread_refuted (c : SourceConf ℝ) (hm : c.distro = "mono")
    (h : c.energy2 < c.energy1) (raw : RawDraws ℝ) :
    c.build raw = .ub "uniform_real_distribution: requires a <= b" := by
  unfold SourceConf.build Source.new
  dsimp only
  have h1 : sampleUniform (lit 0) (lit 2 *. Units.pi : ℝ) raw.uPhi =
      .ok (raw.uPhi.map fun u => u *. (lit 2 *. Units.pi -. lit 0) +. lit 0) := by
    unfold sampleUniform; rw [if_pos SourceWitness.two_pi]
  rw [h1, Res.ok_bind]
  have h2 : Source.sampleEnergy c.distro c.energy1 c.energy2 raw.rawE =
      .ub "uniform_real_distribution: requires a <= b" := by
    rw [hm]
    unfold Source.sampleEnergy
    rw [if_neg (by decide), if_neg (by decide)]
    unfold sampleUniform
    rw [if_neg (by simpa using h)]
  rw [h2]
  rfl

example : ∃ c : SourceConf ℝ, c.distro = "mono" ∧ c.energy2 < c.energy1 :=
  ⟨{ SourceWitness.conf with energy2 := 0 }, rfl, by simp [SourceWitness.conf]⟩

/-- A mono-energetic source has the configured mean energy in every event exactly when mean
and spread are equal. -/
theorem C20_mono_iff (c : SourceConf ℝ) (hm : c.distro = "mono") (hn : 1 ≤ c.n) :
    MonoEnergetic c ↔ c.energy1 = c.energy2 := by
  constructor
  · intro h
    by_contra hne
    obtain ⟨s, hs, he⟩ := h { zeroRaw c.n with rawE := List.replicate c.n (1 / 2) }
      (by simp [RawDraws.Sized, zeroRaw])
      (by intro u hu; rw [(List.mem_replicate.mp hu).2]; norm_num)
    rcases lt_or_ge c.energy2 c.energy1 with hlt | hge
    · rw [C20_default_spread_refuted c hm hlt] at hs; cases hs
    · obtain ⟨phi, es, -, hes, rfl⟩ := build_spec _ _ _ hs
      rw [hm] at hes
      unfold Source.sampleEnergy sampleUniform at hes
      rw [if_neg (by decide), if_neg (by decide), if_pos (by simpa using hge)] at hes
      cases hes
      have := he (1 / 2 * (c.energy2 - c.energy1) + c.energy1) (by
        simp; omega)
      apply hne; linarith
  · intro h raw hr hu
    have hes : Source.sampleEnergy c.distro c.energy1 c.energy2 raw.rawE =
        .ok (raw.rawE.map fun u => u *. (c.energy2 -. c.energy1) +. c.energy1) := by
      rw [hm]
      unfold Source.sampleEnergy sampleUniform
      rw [if_neg (by decide), if_neg (by decide), if_pos (by simp [h])]
    obtain ⟨s, hs⟩ := SourceWitness.build_ok c raw ⟨_, hes⟩
    refine ⟨s, hs, ?_⟩
    obtain ⟨phi, es, -, hes', rfl⟩ := build_spec _ _ _ hs
    rw [hes] at hes'
    cases hes'
    simp [h]

/-- What holds of C20: the sampled energies of a mono-energetic source whose mean does not
exceed its spread lie between the two. Missing: they are all equal to the mean. -/
theorem C20_range_partial (c : SourceConf ℝ) (hm : c.distro = "mono") (h : c.energy1 ≤ c.energy2)
    (raw : RawDraws ℝ) (hu : ∀ u ∈ raw.rawE, 0 ≤ u ∧ u < 1) :
    ∃ s, c.build raw = .ok s ∧ ∀ e ∈ s.energy, c.energy1 ≤ e ∧ e ≤ c.energy2 := by
  have hes : Source.sampleEnergy c.distro c.energy1 c.energy2 raw.rawE =
      .ok (raw.rawE.map fun u => u *. (c.energy2 -. c.energy1) +. c.energy1) := by
    rw [hm]
    unfold Source.sampleEnergy sampleUniform
    rw [if_neg (by decide), if_neg (by decide), if_pos (by simpa using h)]
  obtain ⟨s, hs⟩ := SourceWitness.build_ok c raw ⟨_, hes⟩
  refine ⟨s, hs, ?_⟩
  obtain ⟨phi, es, -, hes', rfl⟩ := build_spec _ _ _ hs
  rw [hes] at hes'
  cases hes'
  intro e he
  obtain ⟨u, huR, rfl⟩ := List.mem_map.mp he
  have := hu u huR
  simp only [real_add, real_mul, real_sub]
  constructor <;> nlinarith

/-- The full statement is false: mean 1 and spread 2. -/
theorem C20_refuted : ¬ ∀ c : SourceConf ℝ, c.distro = "mono" → MonoEnergetic c := by
  intro h
  have := (C20_mono_iff { SourceWitness.conf with energy1 := 1, energy2 := 2 } rfl
    (by simp [SourceWitness.conf])).mp (h _ rfl)
  norm_num at this

end QED
