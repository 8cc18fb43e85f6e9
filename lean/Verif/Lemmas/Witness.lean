import Verif.Lemmas.Loop
import Verif.Lemmas.Geometry

set_option autoImplicit false

/-!
A concrete event over the reals in which a photon converts into a pair in its first
step. It serves as a witness for refutations and satisfiability examples.
-/

namespace QED
namespace Witness

open MCTools

/-- Static field `E = (1/2, 0, 0)`. -/
noncomputable def field : Field ℝ := staticField ⟨1 / 2, 0, 0⟩ ⟨0, 0, 0⟩

/-- Tables with a constant rate and a uniform energy split. -/
noncomputable def bwCfg (dt : ℝ) : BWCfg ℝ where
  field := field
  dt := dt
  track := true
  tAxis := [0, 1]
  tData := [0, 0]
  chiAxis := [0, 1, 2]
  fractAxis := [0, 1]
  fractTable := [[0, 1], [0, 1], [0, 1]]

noncomputable def cfg : SimCfg ℝ where
  push := lorentzForce
  field := field
  dt := 1
  timeEnd := 1
  procs := [.breitWheeler (bwCfg 1)]

/-- All draws are one half. -/
noncomputable def rng : Rng ℝ := ⟨fun _ => 1 / 2, 0⟩

/-- A photon of energy 4 along z with optical depth 0, as a source creates it. -/
noncomputable def photon : Particle ℝ :=
  .newPhotonE 4 ⟨0, 0, 0⟩ ⟨0, 0, 1⟩ 1 0 true 0

noncomputable def start : PList ℝ := (PList.new "0" 10).add photon

theorem rng_valid : rng.Valid := by
  intro i; simp [rng]; norm_num

theorem sqrt16 : Real.sqrt 16 = 4 := by
  rw [show (16:ℝ) = 4 ^ 2 by norm_num, Real.sqrt_sq (by norm_num)]

theorem norm_z (e : ℝ) (he : 0 < e) : (⟨0, 0, e⟩ : V3 ℝ).norm = ⟨0, 0, 1⟩ := by
  simp [V3.norm, V3.divs, V3.mag, V3.dot, Real.sqrt_mul_self he.le, he.ne']

theorem mag_z (e : ℝ) (he : 0 < e) : (⟨0, 0, e⟩ : V3 ℝ).mag = e := by
  simp [V3.mag, V3.dot, Real.sqrt_mul_self he.le]

theorem photon_momentum : photon.momentum = ⟨0, 0, 4⟩ := by
  simp only [photon, Particle.newPhotonE, Particle.new]
  rw [norm_z 1 one_pos]
  simp [V3.smul]

theorem photon_depth : photon.opticalDepth = 0 := by
  simp [photon, Particle.newPhotonE, Particle.new, initDepth]

theorem chi_eq (p : Particle ℝ) (hk : p.kind = .photon) (hm : p.momentum = ⟨0, 0, 4⟩) :
    bwChi field p = 1 := by
  have he : p.energy = 4 := by
    unfold Particle.energy; rw [hk, hm]; exact mag_z 4 (by norm_num)
  have hd : p.direction = ⟨0, 0, 1⟩ := by
    unfold Particle.direction; rw [hm]; exact norm_z 4 (by norm_num)
  have hs : Real.sqrt (1 / 4) = 1 / 2 := by
    rw [show (1 / 4 : ℝ) = (1 / 2) ^ 2 by norm_num, Real.sqrt_sq (by norm_num)]
  unfold bwChi
  rw [he, hd]
  simp only [field, staticField, V3.dot, V3.smul, V3.sub, V3.cross, V3.add, V3.mag, real_add,
    real_mul, real_sub, real_sqrt, real_lit]
  norm_num at hs ⊢
  rw [hs]; norm_num

theorem split_eq (dt : ℝ) : bwSplit (bwCfg dt) 1 (1 / 2) = .ok (1 / 2) := by
  have h1 : Numerics.closestPoints (bwCfg dt).chiAxis (Dbl.log10 (1:ℝ)) = .ok (0, 0) := by
    simp [Numerics.closestPoints, bwCfg, Numerics.scanLow, Numerics.usub, rd]
  have h2 : Numerics.interpolate1D [0, 1] (bwCfg dt).fractAxis (1 / 2 : ℝ) = .ok (1 / 2) := by
    simp [Numerics.interpolate1D, bwCfg, Numerics.firstAbove, Numerics.usub, rd]; norm_num
  unfold bwSplit
  rw [h1]
  simp only [Res.ok_bind]
  rw [show (bwCfg dt).fractTable = [[0, 1], [0, 1], [0, 1]] from rfl]
  simp only [rd, List.getElem?_cons_zero, List.getElem?_cons_succ, Res.ok_bind, h2]
  simp

/-- The conversion: an alive photon of momentum `(0,0,4)` whose optical depth is used up. -/
theorem convert_of (p : Particle ℝ) (l : PList ℝ) (r : Rng ℝ) (dt : ℝ)
    (hk : p.kind = .photon)
    (hm : p.momentum = ⟨0, 0, 4⟩) (ha : p.isAlive = true) (hd : p.opticalDepth < bwDelta dt 1 0 4)
    (hr : r.draw = fun _ => 1 / 2) :
    ∃ delta : ℝ, bwInteract (bwCfg dt) p l r = .ok ((p.updateOpticalDepth delta).kill,
      (l.add (pairLepton 1 2 p true (1 / 2))).add (pairLepton (-1) 2 p true (1 / 2)),
      ⟨fun _ => 1 / 2, r.pos + 3⟩) := by
  have he : p.energy = 4 := by
    unfold Particle.energy; rw [hk, hm]; exact mag_z 4 (by norm_num)
  have hc := chi_eq p hk hm
  refine ⟨bwDelta dt 1 0 4, ?_⟩
  unfold bwInteract
  rw [if_neg (by simp [Particle.typeName, hk, ha])]
  have hlogt : Numerics.interpolate1D (bwCfg dt).tAxis (bwCfg dt).tData (Dbl.log10 (1:ℝ)) = .ok 0 := by
    simp [Numerics.interpolate1D, bwCfg, Numerics.firstAbove, Numerics.usub, rd]
  have hcf : bwChi (bwCfg dt).field p = 1 := hc
  rw [hcf]
  dsimp only
  rw [hlogt]
  simp only [Res.ok_bind]
  rw [show (bwCfg dt).dt = dt from rfl, he]
  rw [if_pos (by simpa [Particle.updateOpticalDepth] using hd)]
  rw [show r.next.1 = 1 / 2 by simp [Rng.next, hr], split_eq]
  simp only [Res.ok_bind]
  have he' : (p.updateOpticalDepth (bwDelta dt 1 0 4)).energy = 4 := he
  rw [he']
  have e1 : (1 / 2 : ℝ) *. 4 = 2 := by simp; norm_num
  have e2 : (Dbl.lit 1 -. (1 / 2 : ℝ)) *. 4 = 2 := by simp; norm_num
  rw [e1, e2]
  have hp : ∀ c u : ℝ, pairLepton c 2 (p.updateOpticalDepth (bwDelta dt 1 0 4)) (bwCfg dt).track u =
      pairLepton c 2 p true u := fun _ _ => rfl
  rw [hp, hp]
  simp [Rng.next, hr]

/-- The conversion: an alive photon of momentum `(0,0,4)` with no optical depth left. -/
theorem convert (p : Particle ℝ) (l : PList ℝ) (r : Rng ℝ) (dt : ℝ) (hdt : 0 < dt)
    (hk : p.kind = .photon)
    (hm : p.momentum = ⟨0, 0, 4⟩) (ha : p.isAlive = true) (hd : p.opticalDepth = 0)
    (hr : r.draw = fun _ => 1 / 2) :
    ∃ delta : ℝ, bwInteract (bwCfg dt) p l r = .ok ((p.updateOpticalDepth delta).kill,
      (l.add (pairLepton 1 2 p true (1 / 2))).add (pairLepton (-1) 2 p true (1 / 2)),
      ⟨fun _ => 1 / 2, r.pos + 3⟩) := by
  refine convert_of p l r dt hk hm ha ?_ hr
  rw [hd]
  simp [bwDelta, Units.alpha]; positivity

theorem visit_lepton (c : SimCfg ℝ) (bw : BWCfg ℝ) (hprocs : c.procs = [.breitWheeler bw]) (k : Nat)
    (l : PList ℝ) (r : Rng ℝ) (p : Particle ℝ)
    (hk : l.items[k]? = some p) (hkind : p.kind ≠ .photon) :
    visit c k l r = .ok (l.set k (pushParticle c.push c.field c.dt p), r) := by
  have hlt := (List.getElem?_eq_some_iff.mp hk).1
  unfold visit
  rw [PList.get_eq_ok.mpr hk, hprocs]
  simp only [Res.ok_bind, interactAll]
  unfold interactAt
  set q := pushParticle c.push c.field c.dt p with hq
  have hget : (l.set k q).get k = .ok q := PList.get_eq_ok.mpr (by simp [hlt])
  have hqk : q.kind ≠ .photon := by rw [hq, (push_identity _ _ _ _).1]; exact hkind
  have hint : ∀ l', (Proc.breitWheeler bw).interact q l' r = .ok (q, l', r) := by
    intro l'
    have htype : q.typeName ≠ "Photon" := by unfold Particle.typeName; split <;> simp_all
    simp [Proc.interact, bwInteract, htype]
  rw [hget]
  simp only [Res.ok_bind, hint]
  simp [PList.set]

/-- After one step the list holds the dead photon and two living leptons. -/
theorem step_eq : ∃ ph pos ele : Particle ℝ,
    timeStep cfg (.init start rng []) =
      .ok ⟨⟨"0", 10, [ph, pos, ele]⟩, ⟨fun _ => 1 / 2, 3⟩, 1, 0, []⟩ ∧
    ph.isAlive = false ∧ pos.isAlive = true ∧ ele.isAlive = true ∧
    pos.charge = 1 ∧ ele.charge = -1 ∧ ph.kind = .photon ∧ ph.momentum = ⟨0, 0, 4⟩ ∧
    pos.kind ≠ .photon ∧ ele.kind ≠ .photon := by
  have hpush : ∃ q, pushParticle cfg.push cfg.field cfg.dt photon = q ∧ q.kind = .photon ∧
      q.momentum = ⟨0, 0, 4⟩ ∧ q.isAlive = true ∧ q.opticalDepth = 0 := by
    refine ⟨_, rfl, ?_, ?_, ?_, ?_⟩
    · exact (push_identity cfg.push cfg.field cfg.dt photon).1
    · unfold pushParticle
      rw [if_neg (by simp [photon, Particle.newPhotonE, Particle.new]),
        if_pos (by simp [photon, Particle.newPhotonE, Particle.new])]
      simp only [Particle.updateTime, Particle.updateTrack]
      split
      · exact photon_momentum
      · exact photon_momentum
    · exact (push_identity cfg.push cfg.field cfg.dt photon).2.2.2.2.2.1
    · rw [(push_identity cfg.push cfg.field cfg.dt photon).2.2.2.2.2.2]; exact photon_depth
  obtain ⟨q, hq, qk, qm, qa, qd⟩ := hpush
  obtain ⟨delta, hconv⟩ := convert q ⟨"0", 10, [q]⟩ rng 1 one_pos qk qm qa qd rfl
  set ph := (q.updateOpticalDepth delta).kill
  set pos := pairLepton 1 2 q true (1 / 2 : ℝ) with hpos
  set ele := pairLepton (-1) 2 q true (1 / 2 : ℝ) with hele
  have hstart : start = ⟨"0", 10, [photon]⟩ := by simp [start, PList.add, PList.new]
  have v0 : visit cfg 0 start rng = .ok (⟨"0", 10, [ph, pos, ele]⟩, ⟨fun _ => 1 / 2, 3⟩) := by
    rw [hstart]
    unfold visit
    simp only [PList.get, List.getElem?_cons_zero, Res.ok_bind, hq]
    rw [show cfg.procs = [.breitWheeler (bwCfg 1)] from rfl]
    simp only [interactAll, interactAt, PList.get, Res.ok_bind,
      PList.set, List.set_cons_zero, List.getElem?_cons_zero, Proc.interact, hconv]
    simp [PList.add, rng]
  have kpos : pos.kind ≠ .photon := by
    simp [hpos, pairLepton, Particle.newLepton, Particle.new, Particle.leptonKind]
    split <;> simp
  have kele : ele.kind ≠ .photon := by
    simp [hele, pairLepton, Particle.newLepton, Particle.new, Particle.leptonKind]
  have v1 := visit_lepton cfg _ rfl 1 ⟨"0", 10, [ph, pos, ele]⟩ ⟨fun _ => 1 / 2, 3⟩ pos rfl kpos
  set pos' := pushParticle cfg.push cfg.field cfg.dt pos with hpos'
  have v2 := visit_lepton cfg _ rfl 2 ⟨"0", 10, [ph, pos', ele]⟩ ⟨fun _ => 1 / 2, 3⟩ ele rfl kele
  set ele' := pushParticle cfg.push cfg.field cfg.dt ele with hele'
  refine ⟨ph, pos', ele', ?_, rfl, ?_, ?_, ?_, ?_, qk, qm, ?_, ?_⟩
  · have hadv : advance cfg start rng =
        .ok (⟨"0", 10, [ph, pos', ele']⟩, ⟨fun _ => 1 / 2, 3⟩) := by
      have h10 : start.maxParticles = 10 := by rw [hstart]
      unfold advance
      rw [h10]
      simp only [particleLoop]
      rw [if_pos (by rw [hstart]; simp [PList.nPart]), v0]
      simp only [Res.ok_bind]
      rw [if_pos (by simp [PList.nPart]), v1]
      simp only [Res.ok_bind, PList.set, List.set_cons_succ, List.set_cons_zero]
      rw [if_pos (by simp [PList.nPart]), v2]
      simp only [Res.ok_bind, PList.set, List.set_cons_succ, List.set_cons_zero]
      rw [if_neg (by simp [PList.nPart])]
    unfold timeStep histStep
    simp only [EvState.init, List.getElem?_nil, Res.ok_bind, hadv]
    simp [cfg]
  · exact (push_identity cfg.push cfg.field cfg.dt pos).2.2.2.2.2.1
  · exact (push_identity cfg.push cfg.field cfg.dt ele).2.2.2.2.2.1
  · rw [(push_identity cfg.push cfg.field cfg.dt pos).2.2.1]; rfl
  · rw [(push_identity cfg.push cfg.field cfg.dt ele).2.2.1]; rfl
  · rw [(push_identity cfg.push cfg.field cfg.dt pos).1]; exact kpos
  · rw [(push_identity cfg.push cfg.field cfg.dt ele).1]; exact kele

/-- The same in a list of any capacity, with a step of 1000 and a photon as a source makes it. -/
noncomputable def longCfg : SimCfg ℝ where
  push := lorentzForce
  field := field
  dt := 1000
  timeEnd := 1000
  procs := [.breitWheeler (bwCfg 1000)]

theorem long_step (photon : Particle ℝ) (name : String) (cap pos : Nat) (hk : photon.kind = .photon)
    (hm : photon.momentum = ⟨0, 0, 4⟩) (ha : photon.isAlive = true)
    (hd : photon.opticalDepth < 1) (h0 : photon.mass = 0) : ∃ ph pos' ele : Particle ℝ,
    timeStep longCfg (.init ⟨name, cap + 4, [photon]⟩ ⟨fun _ => 1 / 2, pos⟩ []) =
      .ok ⟨⟨name, cap + 4, [ph, pos', ele]⟩, ⟨fun _ => 1 / 2, pos + 3⟩, 1000, 0, []⟩ ∧
    ph.isAlive = false ∧ pos'.isAlive = true ∧ ele.isAlive = true ∧
    pos'.charge = 1 ∧ ele.charge = -1 ∧ ph.kind = .photon ∧ ph.momentum = ⟨0, 0, 4⟩ ∧
    pos'.kind = .positron ∧ ele.kind = .electron ∧ pos'.mass = 1 ∧ ele.mass = 1 := by
  have hpush : ∃ q, pushParticle longCfg.push longCfg.field longCfg.dt photon = q ∧ q.kind = .photon ∧
      q.momentum = ⟨0, 0, 4⟩ ∧ q.isAlive = true ∧ q.opticalDepth < 1 := by
    refine ⟨_, rfl, ?_, ?_, ?_, ?_⟩
    · rw [(push_identity longCfg.push longCfg.field longCfg.dt photon).1]; exact hk
    · unfold pushParticle
      rw [if_neg (by simp [ha]), if_pos (by simp [h0])]
      simp only [Particle.updateTime, Particle.updateTrack]
      split
      · exact hm
      · exact hm
    · rw [(push_identity longCfg.push longCfg.field longCfg.dt photon).2.2.2.2.2.1]; exact ha
    · rw [(push_identity longCfg.push longCfg.field longCfg.dt photon).2.2.2.2.2.2]; exact hd
  obtain ⟨q, hq, qk, qm, qa, qd⟩ := hpush
  have hdel : q.opticalDepth < bwDelta (1000 : ℝ) 1 0 4 := by
    refine qd.trans ?_
    simp [bwDelta, Units.alpha]; norm_num
  obtain ⟨delta, hconv⟩ := convert_of q ⟨name, cap + 4, [q]⟩ ⟨fun _ => 1 / 2, pos⟩ 1000 qk qm qa hdel rfl
  set ph := (q.updateOpticalDepth delta).kill
  set po := pairLepton 1 2 q true (1 / 2 : ℝ) with hpos
  set ele := pairLepton (-1) 2 q true (1 / 2 : ℝ) with hele
  have v0 : visit longCfg 0 ⟨name, cap + 4, [photon]⟩ ⟨fun _ => 1 / 2, pos⟩ =
      .ok (⟨name, cap + 4, [ph, po, ele]⟩, ⟨fun _ => 1 / 2, pos + 3⟩) := by
    unfold visit
    simp only [PList.get, List.getElem?_cons_zero, Res.ok_bind, hq]
    rw [show longCfg.procs = [.breitWheeler (bwCfg 1000)] from rfl]
    simp only [interactAll, interactAt, PList.get, Res.ok_bind,
      PList.set, List.set_cons_zero, List.getElem?_cons_zero, Proc.interact, hconv]
    simp [PList.add]
  have kpos : po.kind = .positron := by
    simp [hpos, pairLepton, Particle.newLepton, Particle.new, Particle.leptonKind]
    norm_num
  have kele : ele.kind = .electron := by
    simp [hele, pairLepton, Particle.newLepton, Particle.new, Particle.leptonKind]
  have v1 := visit_lepton longCfg _ rfl 1 ⟨name, cap + 4, [ph, po, ele]⟩ ⟨fun _ => 1 / 2, pos + 3⟩ po rfl
    (by rw [kpos]; decide)
  set po' := pushParticle longCfg.push longCfg.field longCfg.dt po with hpos'
  have v2 := visit_lepton longCfg _ rfl 2 ⟨name, cap + 4, [ph, po', ele]⟩ ⟨fun _ => 1 / 2, pos + 3⟩ ele rfl
    (by rw [kele]; decide)
  set ele' := pushParticle longCfg.push longCfg.field longCfg.dt ele with hele'
  refine ⟨ph, po', ele', ?_, rfl, ?_, ?_, ?_, ?_, qk, qm, ?_, ?_, ?_, ?_⟩
  · have hadv : advance longCfg ⟨name, cap + 4, [photon]⟩ ⟨fun _ => 1 / 2, pos⟩ =
        .ok (⟨name, cap + 4, [ph, po', ele']⟩, ⟨fun _ => 1 / 2, pos + 3⟩) := by
      unfold advance
      simp only [particleLoop]
      rw [if_pos (by simp [PList.nPart]), v0]
      simp only [Res.ok_bind]
      rw [if_pos (by simp [PList.nPart]), v1]
      simp only [Res.ok_bind, PList.set, List.set_cons_succ, List.set_cons_zero]
      rw [if_pos (by simp [PList.nPart]), v2]
      simp only [Res.ok_bind, PList.set, List.set_cons_succ, List.set_cons_zero]
      rw [if_neg (by simp [PList.nPart])]
    unfold timeStep histStep
    simp only [EvState.init, List.getElem?_nil, Res.ok_bind, hadv]
    simp [longCfg]
  · exact (push_identity longCfg.push longCfg.field longCfg.dt po).2.2.2.2.2.1
  · exact (push_identity longCfg.push longCfg.field longCfg.dt ele).2.2.2.2.2.1
  · rw [(push_identity longCfg.push longCfg.field longCfg.dt po).2.2.1]; rfl
  · rw [(push_identity longCfg.push longCfg.field longCfg.dt ele).2.2.1]; rfl
  · rw [(push_identity longCfg.push longCfg.field longCfg.dt po).1]; exact kpos
  · rw [(push_identity longCfg.push longCfg.field longCfg.dt ele).1]; exact kele
  · rw [(push_identity longCfg.push longCfg.field longCfg.dt po).2.1]; simp [hpos, pairLepton, Particle.newLepton, Particle.new]
  · rw [(push_identity longCfg.push longCfg.field longCfg.dt ele).2.1]; simp [hele, pairLepton, Particle.newLepton, Particle.new]

end Witness
end QED
