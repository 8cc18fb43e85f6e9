import Verif.Lemmas.Families
import Verif.Lemmas.Witness

set_option autoImplicit false

/-! Witnesses for C111: two photons convert in the same step. -/

namespace QED
namespace Witness

open MCTools

/-- The generator whose draws are all one half, after `n` draws. -/
noncomputable def halves (n : Nat) : Rng ℝ := ⟨fun _ => 1 / 2, n⟩

/-- The photon of `Witness.start` converts wherever it is in a list. -/
theorem visit_photon : ∃ ph pos ele : Particle ℝ, pos.kind ≠ .photon ∧ ele.kind ≠ .photon ∧
    ∀ (l : PList ℝ) (k n : Nat), l.items[k]? = some photon →
      visit cfg k l (halves n) = .ok (((l.set k ph).add pos).add ele, halves (n + 3)) := by
  have hpush : ∃ q, pushParticle cfg.push cfg.field cfg.dt photon = q ∧ q.kind = .photon ∧
      q.momentum = ⟨0, 0, 4⟩ ∧ q.isAlive = true ∧ q.opticalDepth = 0 := by
    refine ⟨_, rfl, ?_, ?_, ?_, ?_⟩
    · exact (push_identity cfg.push cfg.field cfg.dt photon).1
    · unfold pushParticle
      rw [if_neg (by simp [photon, Particle.newPhotonE, Particle.new]),
        if_pos (by simp [photon, Particle.newPhotonE, Particle.new])]
      simp only [Particle.updateTime, Particle.updateTrack]
      split
      · exact photon_momentum
      · exact photon_momentum
    · exact (push_identity cfg.push cfg.field cfg.dt photon).2.2.2.2.2.1
    · rw [(push_identity cfg.push cfg.field cfg.dt photon).2.2.2.2.2.2]; exact photon_depth
  obtain ⟨q, hq, qk, qm, qa, qd⟩ := hpush
  obtain ⟨delta, hconv⟩ := convert q ⟨"0", 10, [q]⟩ (halves 0) 1 one_pos qk qm qa qd rfl
  have hall : ∀ (l : PList ℝ) (n : Nat), bwInteract (bwCfg 1) q l (halves n) =
      .ok ((q.updateOpticalDepth delta).kill, (l.add (pairLepton 1 2 q true (1 / 2))).add
        (pairLepton (-1) 2 q true (1 / 2)), halves (n + 3)) := by
    intro l n
    obtain ⟨ds, new, hb, hr, hl, h⟩ := interact_local (proc := .breitWheeler (bwCfg 1)) hconv
    have hds : ds.length = 3 := by
      have := congrArg Rng.pos hr
      simp only [halves, Rng.skip] at this
      omega
    have hnew : new = [pairLepton 1 2 q true (1 / 2), pairLepton (-1) 2 q true (1 / 2)] := by
      have := congrArg PList.items hl
      rw [PList.addAll_items] at this
      simp only [PList.add, List.length_cons, List.length_nil, Nat.reduceAdd, Nat.reduceLT,
        if_true, List.cons_append, List.nil_append, Nat.reduceSub,
        List.cons.injEq, true_and] at this
      rcases new with _ | ⟨a, _ | ⟨b, _ | ⟨c, t⟩⟩⟩
      · simp at this
      · simp at this
      · simpa using this.symm
      · simp at this
    have := h l (halves n) (fun i d hd => hb i d hd)
    rw [hds, hnew] at this
    exact this
  refine ⟨(q.updateOpticalDepth delta).kill, pairLepton 1 2 q true (1 / 2),
    pairLepton (-1) 2 q true (1 / 2), ?_, ?_, ?_⟩
  · simp [pairLepton, Particle.newLepton, Particle.new, Particle.leptonKind]
    split <;> simp
  · simp [pairLepton, Particle.newLepton, Particle.new, Particle.leptonKind]
  · intro l k n hk
    have hlt := (List.getElem?_eq_some_iff.mp hk).1
    unfold visit
    rw [PList.get_eq_ok.mpr hk]
    simp only [Res.ok_bind, hq]
    rw [show cfg.procs = [.breitWheeler (bwCfg 1)] from rfl]
    simp only [interactAll, interactAt]
    rw [PList.get_eq_ok.mpr (show (l.set k q).items[k]? = some q by simp [hlt])]
    simp only [Res.ok_bind, Proc.interact, hall]
    have e : ∀ (l : PList ℝ) (a b c : Particle ℝ), k < l.items.length →
        ((l.add a).add b).set k c = ((l.set k c).add a).add b := fun l a b c h =>
      PList.addAll_set l [a, b] k c h
    rw [e _ _ _ _ (by simpa using hlt)]
    congr 4
    exact PList.ext' rfl rfl (by simp)

theorem one_step {l l' : PList ℝ} {r r' : Rng ℝ} (h : advance cfg l r = .ok (l', r')) :
    Event cfg l r [] 1 l' r' [] := by
  refine Event.mk (s := ⟨l', r', 1, 0, []⟩) (.step (by simp [EvState.init, cfg]) ?_
    (.done (by simp [cfg]))) rfl
  unfold timeStep histStep
  simp only [EvState.init, List.getElem?_nil, Res.ok_bind, h]
  simp [cfg]

/-- One photon alone, in a list of four places. -/
theorem alone : ∃ (l : PList ℝ) (r : Rng ℝ),
    Event cfg ⟨"0", 4, [photon]⟩ (halves 0) [] 1 l r [] ∧ l.items.length = 3 := by
  obtain ⟨ph, pos, ele, kp, ke, hv⟩ := visit_photon
  have v0 := hv ⟨"0", 4, [photon]⟩ 0 0 rfl
  have e0 : (((⟨"0", 4, [photon]⟩ : PList ℝ).set 0 ph).add pos).add ele =
      ⟨"0", 4, [ph, pos, ele]⟩ := by simp [PList.set, PList.add]
  rw [e0] at v0
  have v1 := visit_lepton cfg _ rfl 1 ⟨"0", 4, [ph, pos, ele]⟩ (halves 3) pos rfl kp
  set pos' := pushParticle cfg.push cfg.field cfg.dt pos
  have v2 := visit_lepton cfg _ rfl 2 ⟨"0", 4, [ph, pos', ele]⟩ (halves 3) ele rfl ke
  refine ⟨⟨"0", 4, [ph, pos', pushParticle cfg.push cfg.field cfg.dt ele]⟩, halves 3, one_step ?_, rfl⟩
  · unfold advance
    simp only [particleLoop]
    rw [if_pos (by simp [PList.nPart]), v0]
    simp only [Res.ok_bind, Nat.zero_add]
    rw [if_pos (by simp [PList.nPart]), v1]
    simp only [Res.ok_bind, PList.set, List.set_cons_succ, List.set_cons_zero]
    rw [if_pos (by simp [PList.nPart]), v2]
    simp only [Res.ok_bind, PList.set, List.set_cons_succ, List.set_cons_zero]
    rw [if_neg (by simp [PList.nPart])]

/-- Two photons in a list of four places: the second pair is lost. -/
theorem crowded : ∃ (l : PList ℝ) (r : Rng ℝ),
    Event cfg ⟨"0", 4, [photon, photon]⟩ (halves 0) [] 1 l r [] ∧ l.items.length = 4 := by
  obtain ⟨ph, pos, ele, kp, ke, hv⟩ := visit_photon
  have v0 := hv ⟨"0", 4, [photon, photon]⟩ 0 0 rfl
  have e0 : (((⟨"0", 4, [photon, photon]⟩ : PList ℝ).set 0 ph).add pos).add ele =
      ⟨"0", 4, [ph, photon, pos, ele]⟩ := by simp [PList.set, PList.add]
  rw [e0] at v0
  have v1 := hv ⟨"0", 4, [ph, photon, pos, ele]⟩ 1 3 rfl
  have e1 : (((⟨"0", 4, [ph, photon, pos, ele]⟩ : PList ℝ).set 1 ph).add pos).add ele =
      ⟨"0", 4, [ph, ph, pos, ele]⟩ := by simp [PList.set, PList.add]
  rw [e1] at v1
  have v2 := visit_lepton cfg _ rfl 2 ⟨"0", 4, [ph, ph, pos, ele]⟩ (halves 6) pos rfl kp
  set pos' := pushParticle cfg.push cfg.field cfg.dt pos
  have v3 := visit_lepton cfg _ rfl 3 ⟨"0", 4, [ph, ph, pos', ele]⟩ (halves 6) ele rfl ke
  refine ⟨⟨"0", 4, [ph, ph, pos', pushParticle cfg.push cfg.field cfg.dt ele]⟩, halves 6,
    one_step ?_, rfl⟩
  · unfold advance
    simp only [particleLoop]
    rw [if_pos (by simp [PList.nPart]), v0]
    simp only [Res.ok_bind, Nat.zero_add]
    rw [if_pos (by simp [PList.nPart]), v1]
    simp only [Res.ok_bind, Nat.reduceAdd]
    rw [if_pos (by simp [PList.nPart]), v2]
    simp only [Res.ok_bind, PList.set, List.set_cons_succ, List.set_cons_zero]
    rw [if_pos (by simp [PList.nPart]), v3]
    simp only [Res.ok_bind, PList.set, List.set_cons_succ, List.set_cons_zero]

/-- Two photons in a list with room for all. -/
theorem roomy : ∃ (l : PList ℝ) (r : Rng ℝ),
    Event cfg ⟨"0", 10, [photon, photon]⟩ (halves 0) [] 1 l r [] ∧ l.items.length = 6 ∧
      l.maxParticles = 10 := by
  obtain ⟨ph, pos, ele, kp, ke, hv⟩ := visit_photon
  have v0 := hv ⟨"0", 10, [photon, photon]⟩ 0 0 rfl
  have e0 : (((⟨"0", 10, [photon, photon]⟩ : PList ℝ).set 0 ph).add pos).add ele =
      ⟨"0", 10, [ph, photon, pos, ele]⟩ := by simp [PList.set, PList.add]
  rw [e0] at v0
  have v1 := hv ⟨"0", 10, [ph, photon, pos, ele]⟩ 1 3 rfl
  have e1 : (((⟨"0", 10, [ph, photon, pos, ele]⟩ : PList ℝ).set 1 ph).add pos).add ele =
      ⟨"0", 10, [ph, ph, pos, ele, pos, ele]⟩ := by simp [PList.set, PList.add]
  rw [e1] at v1
  have v2 := visit_lepton cfg _ rfl 2 ⟨"0", 10, [ph, ph, pos, ele, pos, ele]⟩ (halves 6) pos rfl kp
  set pos' := pushParticle cfg.push cfg.field cfg.dt pos
  have v3 := visit_lepton cfg _ rfl 3 ⟨"0", 10, [ph, ph, pos', ele, pos, ele]⟩ (halves 6) ele rfl ke
  set ele' := pushParticle cfg.push cfg.field cfg.dt ele
  have v4 := visit_lepton cfg _ rfl 4 ⟨"0", 10, [ph, ph, pos', ele', pos, ele]⟩ (halves 6) pos rfl kp
  have v5 := visit_lepton cfg _ rfl 5 ⟨"0", 10, [ph, ph, pos', ele', pos', ele]⟩ (halves 6) ele rfl
    ke
  refine ⟨⟨"0", 10, [ph, ph, pos', ele', pos', ele']⟩, halves 6, one_step ?_, rfl, rfl⟩
  unfold advance
  simp only [particleLoop]
  rw [if_pos (by simp [PList.nPart]), v0]
  simp only [Res.ok_bind, Nat.zero_add]
  rw [if_pos (by simp [PList.nPart]), v1]
  simp only [Res.ok_bind, Nat.reduceAdd]
  rw [if_pos (by simp [PList.nPart]), v2]
  simp only [Res.ok_bind, PList.set, List.set_cons_succ, List.set_cons_zero]
  rw [if_pos (by simp [PList.nPart]), v3]
  simp only [Res.ok_bind, PList.set, List.set_cons_succ, List.set_cons_zero]
  rw [if_pos (by simp [PList.nPart]), v4]
  simp only [Res.ok_bind, PList.set, List.set_cons_succ, List.set_cons_zero]
  rw [if_pos (by simp [PList.nPart]), v5]
  simp only [Res.ok_bind, PList.set, List.set_cons_succ, List.set_cons_zero]
  rw [if_neg (by simp [PList.nPart])]

end Witness
end QED
