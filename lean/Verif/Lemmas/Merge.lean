import Verif.Lemmas.Families
import Mathlib.Algebra.BigOperators.Group.Finset.Basic
import Mathlib.Algebra.Order.BigOperators.Group.Finset
import Mathlib.Data.Fintype.Basic

set_option autoImplicit false
set_option linter.unusedSectionVars false

/-! Helper lemmas for C111: events of families put together. -/

namespace QED

open Dbl MCTools

variable {D : Type} [Dbl D] {τ : Type} [DecidableEq τ] [Fintype τ]

theorem sum_select {α : Type} (m : List τ) (xs : List α) (h : m.length = xs.length) :
    ∑ b, (select b m xs).length = xs.length := by
  induction m generalizing xs with
  | nil => cases xs with
    | nil => simp
    | cons x xs => simp at h
  | cons c m ih => cases xs with
    | nil => simp at h
    | cons x xs =>
      have : ∀ b, (select b (c :: m) (x :: xs)).length =
          (select b m xs).length + if c = b then 1 else 0 := by
        intro b; rw [select_cons]; split <;> simp
      simp only [this, Finset.sum_add_distrib, ih xs (by simpa using h)]
      simp

theorem loop_merge {cfg : SimCfg D} : ∀ (fuel : Nat) {k : Nat} {l : PList D} {m : List τ}
    {f : τ → Nat} {L : τ → PList D} {R R' : τ → Rng D},
    (∀ b, particleLoop cfg (f b) ((m.take k).count b) (l.family b m) (R b) = .ok (L b, R' b)) →
    (∀ b, l.maxParticles ≤ (m.take k).count b + f b) → l.maxParticles ≤ k + fuel →
    m.length = l.items.length → ∑ b, (L b).items.length < l.maxParticles →
    ∃ e ds dm L', dm.length = ds.length ∧ (m ++ e).length = L'.items.length ∧
      (∀ b, (R b).Begins (select b dm ds) ∧ R' b = (R b).skip (select b dm ds).length ∧
        L b = L'.family b (m ++ e)) ∧
      ∀ r : Rng D, r.Begins ds → particleLoop cfg fuel k l r = .ok (L', r.skip ds.length) := by
  intro fuel
  induction fuel with
  | zero =>
    intro k l m f L R R' h hf hM hm hsum
    have hsub : ∀ b, (l.family b m).items.length ≤ (L b).items.length := fun b =>
      (particleLoop_grows (h b)).length
    have htot : l.items.length < l.maxParticles := by
      rw [← sum_select m l.items hm]
      exact lt_of_le_of_lt (Finset.sum_le_sum fun b _ => hsub b) hsum
    refine ⟨[], [], [], l, rfl, by simpa using hm, fun b => ⟨begins_nil _, ?_⟩, fun r _ => rfl⟩
    have hb := h b
    rw [List.append_nil]
    cases hfb : f b with
    | zero =>
      rw [hfb] at hb
      simp only [particleLoop, Res.ok.injEq, Prod.mk.injEq] at hb
      exact ⟨hb.2.symm, hb.1.symm⟩
    | succ f' =>
      rw [hfb, particleLoop, if_neg] at hb
      · simp only [Res.ok.injEq, Prod.mk.injEq] at hb
        exact ⟨hb.2.symm, hb.1.symm⟩
      · simp only [PList.nPart, PList.family]
        rw [select_length b m _ hm, List.take_of_length_le (by omega)]
        omega
  | succ fuel ih =>
    intro k l m f L R R' h hf hM hm hsum
    have hsub : ∀ b, (l.family b m).items.length ≤ (L b).items.length := fun b =>
      (particleLoop_grows (h b)).length
    have htot : l.items.length < l.maxParticles := by
      rw [← sum_select m l.items hm]
      exact lt_of_le_of_lt (Finset.sum_le_sum fun b _ => hsub b) hsum
    by_cases hk : k < l.items.length
    · obtain ⟨c, hc⟩ : ∃ c, m[k]? = some c := ⟨_, List.getElem?_eq_getElem (by omega)⟩
      have hget := select_get c m l.items k _ hc (List.getElem?_eq_getElem hk)
      obtain ⟨hlt, -⟩ := List.getElem?_eq_some_iff.mp hget
      have hle := select_length_le c m l.items
      have hcl := h c
      obtain ⟨f', hf'⟩ : ∃ f', f c = f' + 1 := ⟨f c - 1, by have := hf c; omega⟩
      rw [hf', particleLoop, if_pos (by exact hlt), Res.bind_eq_ok] at hcl
      obtain ⟨⟨l1, r1⟩, hv, hcl⟩ := hcl
      have g2 := particleLoop_grows hcl
      obtain ⟨p', ds, new, hb, rfl, rfl, hall⟩ := visit_local hget hv
      have hLc : (L c).items.length < l.maxParticles :=
        lt_of_le_of_lt (Finset.single_le_sum (f := fun b => (L b).items.length)
          (fun _ _ => Nat.zero_le _) (Finset.mem_univ c)) hsum
      have e1 := PList.addAll_room ((l.family c m).set ((m.take k).count c) p') new
        (lt_of_le_of_lt g2.length hLc)
      have hnew : (select c m l.items).length + new.length ≤ (L c).items.length := by
        refine le_trans (le_of_eq ?_) g2.length
        rw [e1]; simp [PList.family]
      have hall' : l.items.length + new.length ≤ ∑ b, (L b).items.length := by
        rw [← sum_select m l.items hm]
        rw [← Finset.add_sum_erase _ _ (Finset.mem_univ c),
          ← Finset.add_sum_erase (a := c) Finset.univ (fun b => (L b).items.length)
            (Finset.mem_univ c)]
        have : ∑ x ∈ Finset.univ.erase c, (select x m l.items).length ≤
            ∑ x ∈ Finset.univ.erase c, (L x).items.length := Finset.sum_le_sum fun b _ => hsub b
        omega
      have eW := PList.addAll_fits (l.set k p') new (by simp; omega)
      have hroom : ((l.set k p').addAll new).items.length < l.maxParticles := by
        rw [eW]; simp; omega
      have hm1 : (m ++ List.replicate new.length c).length =
          ((l.set k p').addAll new).items.length := by
        rw [eW]; simp [hm]
      have htake : (m ++ List.replicate new.length c).take (k + 1) = m.take (k + 1) := by
        rw [List.take_append_of_le_length (by omega)]
      have hmax : ((l.set k p').addAll new).maxParticles = l.maxParticles := by simp
      obtain ⟨e, ds', dm', L', hd', he, hB, hR⟩ := ih (k := k + 1)
        (l := (l.set k p').addAll new) (m := m ++ List.replicate new.length c)
        (f := Function.update f c f') (L := L) (R := Function.update R c ((R c).skip ds.length))
        (R' := R')
        (by
          intro b
          rw [htake, count_take_succ b c m k hc, family_visit hm hc hroom]
          by_cases hcb : c = b
          · subst hcb
            simpa using hcl
          · rw [if_neg hcb, if_neg hcb, Function.update_of_ne (Ne.symm hcb),
              Function.update_of_ne (Ne.symm hcb)]
            exact h b)
        (by
          intro b
          rw [htake, count_take_succ b c m k hc, hmax]
          have := hf b
          by_cases hcb : c = b
          · subst hcb
            simp; omega
          · rw [if_neg hcb, Function.update_of_ne (Ne.symm hcb)]; omega)
        (by rw [hmax]; omega) hm1 (by rw [hmax]; exact hsum)
      refine ⟨List.replicate new.length c ++ e, ds ++ ds', List.replicate ds.length c ++ dm', L',
        by simp [hd'], by rw [← List.append_assoc]; exact he, ?_, ?_⟩
      · intro b
        obtain ⟨b1, b2, b3⟩ := hB b
        rw [select_append _ _ _ _ _ (by simp), select_replicate, ← List.append_assoc]
        by_cases hcb : c = b
        · subst hcb
          rw [Function.update_self] at b1 b2
          rw [if_pos rfl]
          refine ⟨begins_append.mpr ⟨hb, b1⟩, ?_, b3⟩
          rw [b2, skip_skip, List.length_append]
        · rw [Function.update_of_ne (Ne.symm hcb)] at b1 b2
          rw [if_neg hcb, List.nil_append]
          exact ⟨b1, b2, b3⟩
      · intro r hr
        obtain ⟨hr1, hr2⟩ := begins_append.mp hr
        rw [particleLoop, if_pos (show k < l.nPart from hk), hall k l r (by rw [List.getElem?_eq_getElem hk]) hr1]
        simp only [Res.ok_bind]
        rw [hR _ hr2, skip_skip, List.length_append]
    · refine ⟨[], [], [], l, rfl, by simpa using hm, fun b => ⟨begins_nil _, ?_⟩, fun r _ => ?_⟩
      · have hb := h b
        rw [List.append_nil]
        cases hfb : f b with
        | zero =>
          rw [hfb] at hb
          simp only [particleLoop, Res.ok.injEq, Prod.mk.injEq] at hb
          exact ⟨hb.2.symm, hb.1.symm⟩
        | succ f' =>
          rw [hfb, particleLoop, if_neg] at hb
          · simp only [Res.ok.injEq, Prod.mk.injEq] at hb
            exact ⟨hb.2.symm, hb.1.symm⟩
          · simp only [PList.nPart, PList.family]
            rw [select_length b m _ hm, List.take_of_length_le (by omega)]
            omega
      · rw [particleLoop, if_neg (show ¬ k < l.nPart from hk)]; rfl

theorem run_merge {cfg : SimCfg D} [Nonempty τ] : ∀ (n : Nat) {l : PList D} {m : List τ} {t : D}
    {R : τ → Rng D} {S : τ → EvState D},
    (∀ b, Run cfg ⟨l.family b m, R b, t, 0, []⟩ n (.ok (S b))) →
    m.length = l.items.length → ∑ b, (S b).list.items.length < l.maxParticles →
    ∃ e ds dm L' t', dm.length = ds.length ∧ (m ++ e).length = L'.items.length ∧
      (∀ b, (R b).Begins (select b dm ds) ∧
        S b = ⟨L'.family b (m ++ e), (R b).skip (select b dm ds).length, t', 0, []⟩) ∧
      ∀ r : Rng D, r.Begins ds →
        Run cfg ⟨l, r, t, 0, []⟩ n (.ok ⟨L', r.skip ds.length, t', 0, []⟩) := by
  intro n
  induction n with
  | zero =>
    intro l m t R S h hm hsum
    have h0 : ∀ b, (t <. cfg.timeEnd) = false ∧ S b = ⟨l.family b m, R b, t, 0, []⟩ := by
      intro b
      have := h b
      generalize ho : (Res.ok (S b) : Res (EvState D)) = o at this
      cases this with
      | done h => exact ⟨h, Res.ok.inj ho⟩
    refine ⟨[], [], [], l, t, rfl, by simpa using hm, fun b => ⟨begins_nil _, ?_⟩, fun r _ => ?_⟩
    · rw [List.append_nil]; exact (h0 b).2
    · exact .done (h0 (Classical.arbitrary τ)).1
  | succ n ih =>
    intro l m t R S h hm hsum
    have h1 : ∀ b, ∃ s1, (t <. cfg.timeEnd) = true ∧
        timeStep cfg ⟨l.family b m, R b, t, 0, []⟩ = .ok s1 ∧ Run cfg s1 n (.ok (S b)) := by
      intro b
      have := h b
      generalize ho : (Res.ok (S b) : Res (EvState D)) = o at this
      generalize hn : n + 1 = n' at this
      cases this with
      | done h => omega
      | step a b c => exact ⟨_, a, b, by subst ho; rw [Nat.succ.inj hn]; exact c⟩
      | abort _ _ h3 => exact absurd ho.symm (h3 _)
    choose s1 ht h1 h2 using h1
    have h3 : ∀ b, ∃ l1 r1, advance cfg (l.family b m) (R b) = .ok (l1, r1) ∧
        s1 b = ⟨l1, r1, t +. cfg.dt, 0, []⟩ := fun b => by
      have e := h1 b
      unfold timeStep histStep at e
      simp only [List.getElem?_nil, Res.ok_bind] at e
      rw [Res.bind_eq_ok] at e
      obtain ⟨⟨l1, r1⟩, ha, e⟩ := e
      exact ⟨l1, r1, ha, (Res.ok.inj e).symm⟩
    choose l1 r1 h3 h4 using h3
    have hgrow : ∀ b, (l1 b).items.length ≤ (S b).list.items.length := fun b => by
      have := (reach_grows (h2 b).reach).length
      rwa [h4 b] at this
    obtain ⟨e, ds, dm, L', hd, he, hB, hW⟩ := loop_merge (cfg := cfg) l.maxParticles (k := 0)
      (l := l) (m := m) (f := fun _ => l.maxParticles) (L := l1) (R := R) (R' := r1)
      (fun b => h3 b) (fun b => by omega) (by omega) hm
      (lt_of_le_of_lt (Finset.sum_le_sum fun b _ => hgrow b) hsum)
    have hmax : L'.maxParticles = l.maxParticles := by
      have b : τ := Classical.arbitrary τ
      have g := (particleLoop_grows (h3 b)).max
      rw [(hB b).2.2] at g
      exact g
    obtain ⟨e', ds', dm', L'', t', hd', he', hB', hW'⟩ := ih (l := L') (m := m ++ e)
      (t := t +. cfg.dt) (R := r1) (S := S)
      (fun b => by
        have := h2 b
        rwa [h4 b, (hB b).2.2] at this) he (by rw [hmax]; exact hsum)
    refine ⟨e ++ e', ds ++ ds', dm ++ dm', L'', t', by simp [hd, hd'],
      by rw [← List.append_assoc]; exact he', ?_, ?_⟩
    · intro b
      obtain ⟨b1, b2, b3⟩ := hB b
      obtain ⟨c1, c2⟩ := hB' b
      rw [select_append _ _ _ _ _ hd]
      rw [b2] at c1 c2
      refine ⟨begins_append.mpr ⟨b1, c1⟩, ?_⟩
      rw [c2, skip_skip, List.length_append, ← List.append_assoc]
    · intro r hr
      obtain ⟨hr1, hr2⟩ := begins_append.mp hr
      refine .step (ht (Classical.arbitrary τ)) ?_ (s' := ⟨L', r.skip ds.length, t +. cfg.dt, 0, []⟩) ?_
      · unfold timeStep histStep advance
        simp only [List.getElem?_nil, Res.ok_bind]
        rw [hW r hr1]
        simp only [Res.ok_bind]
      · have := hW' _ hr2
        rwa [skip_skip, ← List.length_append] at this

end QED
