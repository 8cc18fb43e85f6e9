import Verif.Spec.Families
import Verif.Lemmas.Loop

set_option autoImplicit false
set_option linter.unusedSectionVars false

/-! Helper lemmas for C111: what a visit reads, and the particle loop family by family. -/

namespace QED

open Dbl MCTools

section select

variable {τ α : Type} [DecidableEq τ]

@[simp] theorem select_nil (b : τ) (xs : List α) : select b [] xs = [] := by cases xs <;> rfl

@[simp] theorem select_nil_right (b : τ) (m : List τ) : select b m ([] : List α) = [] := by
  cases m <;> rfl

theorem select_cons (b c : τ) (m : List τ) (x : α) (xs : List α) :
    select b (c :: m) (x :: xs) = if c = b then x :: select b m xs else select b m xs := rfl

theorem select_append (b : τ) (m m' : List τ) (xs xs' : List α) (h : m.length = xs.length) :
    select b (m ++ m') (xs ++ xs') = select b m xs ++ select b m' xs' := by
  induction m generalizing xs with
  | nil => cases xs with
    | nil => simp
    | cons x xs => simp at h
  | cons c m ih => cases xs with
    | nil => simp at h
    | cons x xs =>
      simp only [List.cons_append, select_cons, ih xs (by simpa using h)]
      split <;> rfl

theorem select_replicate (b c : τ) (xs : List α) :
    select b (List.replicate xs.length c) xs = if c = b then xs else [] := by
  induction xs with
  | nil => simp
  | cons x xs ih =>
    rw [List.length_cons, List.replicate_succ, select_cons, ih]
    split <;> rfl

theorem select_length (b : τ) (m : List τ) (xs : List α) (h : m.length = xs.length) :
    (select b m xs).length = m.count b := by
  induction m generalizing xs with
  | nil => simp
  | cons c m ih => cases xs with
    | nil => simp at h
    | cons x xs =>
      rw [select_cons, List.count_cons]
      have := ih xs (by simpa using h)
      split <;> simp_all

theorem select_length_le (b : τ) (m : List τ) (xs : List α) :
    (select b m xs).length ≤ xs.length := by
  induction m generalizing xs with
  | nil => simp
  | cons c m ih => cases xs with
    | nil => simp
    | cons x xs =>
      rw [select_cons]
      have := ih xs
      split <;> simp <;> omega

theorem select_get (b : τ) (m : List τ) (xs : List α) (k : Nat) (x : α) (hm : m[k]? = some b)
    (hx : xs[k]? = some x) : (select b m xs)[(m.take k).count b]? = some x := by
  induction m generalizing xs k with
  | nil => simp at hm
  | cons c m ih => cases xs with
    | nil => simp at hx
    | cons y xs =>
      cases k with
      | zero =>
        simp only [List.getElem?_cons_zero, Option.some.injEq] at hm hx
        subst hm hx
        simp [select_cons]
      | succ k =>
        simp only [List.getElem?_cons_succ] at hm hx
        have := ih xs k hm hx
        rw [select_cons, List.take_succ_cons, List.count_cons]
        split <;> simp_all

theorem select_set (b : τ) (m : List τ) (xs : List α) (k : Nat) (y : α) (hm : m[k]? = some b) :
    select b m (xs.set k y) = (select b m xs).set ((m.take k).count b) y := by
  induction m generalizing xs k with
  | nil => simp at hm
  | cons c m ih => cases xs with
    | nil => simp
    | cons x xs =>
      cases k with
      | zero =>
        simp only [List.getElem?_cons_zero, Option.some.injEq] at hm
        subst hm
        simp [select_cons]
      | succ k =>
        simp only [List.getElem?_cons_succ] at hm
        have := ih xs k hm
        rw [List.set_cons_succ, select_cons, select_cons, List.take_succ_cons, List.count_cons]
        split <;> simp_all

theorem select_set_other (b c : τ) (m : List τ) (xs : List α) (k : Nat) (y : α)
    (hm : m[k]? = some c) (hc : c ≠ b) : select b m (xs.set k y) = select b m xs := by
  induction m generalizing xs k with
  | nil => simp at hm
  | cons d m ih => cases xs with
    | nil => simp
    | cons x xs =>
      cases k with
      | zero =>
        simp only [List.getElem?_cons_zero, Option.some.injEq] at hm
        subst hm
        simp [select_cons, hc]
      | succ k =>
        simp only [List.getElem?_cons_succ] at hm
        rw [List.set_cons_succ, select_cons, select_cons, ih xs k hm]

theorem count_take_succ (b c : τ) (m : List τ) (k : Nat) (hm : m[k]? = some c) :
    (m.take (k + 1)).count b = (m.take k).count b + if c = b then 1 else 0 := by
  rw [List.take_add_one, hm]
  simp only [Option.toList_some, List.count_append, List.count_singleton, beq_iff_eq]

end select

variable {D : Type} [Dbl D]

/-! ## Draws -/

theorem begins_nil (r : Rng D) : r.Begins [] := by intro i d h; simp at h

theorem begins_cons {r : Rng D} {d : D} {ds : List D} :
    r.Begins (d :: ds) ↔ r.next.1 = d ∧ r.next.2.Begins ds := by
  constructor
  · intro h
    refine ⟨h 0 d rfl, fun i e he => ?_⟩
    have := h (i + 1) e (by simpa using he)
    simp only [Rng.next]
    rw [← this]; congr 1; omega
  · rintro ⟨h, h'⟩ i e he
    cases i with
    | zero =>
      simp only [List.getElem?_cons_zero, Option.some.injEq] at he
      rw [← he, ← h]; rfl
    | succ i =>
      rw [← h' i e (by simpa using he)]
      simp only [Rng.next]; congr 1; omega

theorem begins_append {r : Rng D} {ds es : List D} :
    r.Begins (ds ++ es) ↔ r.Begins ds ∧ (r.skip ds.length).Begins es := by
  induction ds generalizing r with
  | nil => exact ⟨fun h => ⟨begins_nil r, h⟩, fun h => h.2⟩
  | cons d ds ih =>
    rw [List.cons_append, begins_cons, begins_cons, ih, and_assoc]
    have : r.next.2.skip ds.length = r.skip (d :: ds).length := by
      simp only [Rng.next, Rng.skip, List.length_cons, Rng.mk.injEq, true_and]; omega
    rw [this]

theorem skip_skip (r : Rng D) (m n : Nat) : (r.skip m).skip n = r.skip (m + n) := by
  simp [Rng.skip, Nat.add_assoc]

theorem skip_zero (r : Rng D) : r.skip 0 = r := rfl

/-! ## What a process reads -/

/-- A process call in which particle `p` becomes `p'` and adds `new`, with draws `ds`, would
have done so whatever else is in the list and whatever the later draws are. -/
theorem interact_local {proc : Proc D} {p p' : Particle D} {l l' : PList D} {r r' : Rng D}
    (h : proc.interact p l r = .ok (p', l', r')) :
    ∃ ds new, r.Begins ds ∧ r' = r.skip ds.length ∧ l' = l.addAll new ∧
      ∀ (l2 : PList D) (r2 : Rng D), r2.Begins ds →
        proc.interact p l2 r2 = .ok (p', l2.addAll new, r2.skip ds.length) := by
  cases proc with
  | stochastic cfg =>
    simp only [Proc.interact] at h ⊢
    unfold stochasticInteract at h ⊢
    by_cases h0 : (p.mass ==. Dbl.lit 0) || !p.isAlive
    · rw [if_pos h0] at h
      simp only [Res.ok.injEq, Prod.mk.injEq] at h
      obtain ⟨rfl, rfl, rfl⟩ := h
      exact ⟨[], [], begins_nil _, rfl, rfl, fun l2 r2 _ => by rw [if_pos h0]; rfl⟩
    · simp only [if_neg h0] at h ⊢
      rw [Res.bind_eq_ok] at h
      obtain ⟨logh, hlogh, h⟩ := h
      rw [hlogh]
      simp only [Res.ok_bind]
      generalize emissionDelta cfg.dt (calculateEta cfg.field p) logh p.gamma = delta at h ⊢
      by_cases h1 : ((p.updateOpticalDepth delta).opticalDepth <. Dbl.lit 0) = true
      · simp only [if_pos h1] at h ⊢
        rw [Res.bind_eq_ok] at h
        obtain ⟨chi, hchi, h⟩ := h
        simp only [Res.ok.injEq, Prod.mk.injEq] at h
        generalize hge : Dbl.lit 2 *. chi *. (p.updateOpticalDepth delta).gamma
          /. calculateEta cfg.field p = gammaE at h
        generalize hq : (p.updateOpticalDepth delta).updateTrack
          (p.updateOpticalDepth delta).position ((p.updateOpticalDepth delta).momentum.sub
            ((p.updateOpticalDepth delta).direction.smul gammaE)) = q at h
        obtain ⟨rfl, rfl, rfl⟩ := h
        by_cases h2 : (cfg.eMin <. gammaE) = true
        · by_cases h3 : (cfg.sampleFrac <. r.next.2.next.1) = true
          · refine ⟨[r.next.1, r.next.2.next.1, r.next.2.next.2.next.1,
              r.next.2.next.2.next.2.next.1], [Particle.newPhotonE gammaE q.position q.direction
                (q.weight /. cfg.sampleFrac) q.time cfg.track r.next.2.next.2.next.1], ?_, ?_, ?_, ?_⟩
            · simp only [begins_cons, begins_nil, and_self]
            · rw [storePhoton, if_pos h2, if_pos h3]; rfl
            · rw [storePhoton, if_pos h2, if_pos h3]; rfl
            · intro l2 r2 hb
              simp only [begins_cons] at hb
              obtain ⟨b1, b2, b3, b4, -⟩ := hb
              rw [b1, hchi]
              simp only [Res.ok_bind, hge, hq]
              rw [storePhoton, if_pos h2, if_pos (by rw [b2]; exact h3), storePhoton, if_pos h2,
                if_pos h3]
              simp only [b3, b4]
              rfl
          · refine ⟨[r.next.1, r.next.2.next.1, r.next.2.next.2.next.1], [], ?_, ?_, ?_, ?_⟩
            · simp only [begins_cons, begins_nil, and_self]
            · rw [storePhoton, if_pos h2, if_neg h3]; rfl
            · rw [storePhoton, if_pos h2, if_neg h3]; rfl
            · intro l2 r2 hb
              simp only [begins_cons] at hb
              obtain ⟨b1, b2, b3, -⟩ := hb
              rw [b1, hchi]
              simp only [Res.ok_bind, hge, hq]
              rw [storePhoton, if_pos h2, if_neg (by rw [b2]; exact h3), storePhoton, if_pos h2,
                if_neg h3]
              simp only [b3]
              rfl
        · refine ⟨[r.next.1, r.next.2.next.1], [], ?_, ?_, ?_, ?_⟩
          · simp only [begins_cons, begins_nil, and_self]
          · rw [storePhoton, if_neg h2]; rfl
          · rw [storePhoton, if_neg h2]; rfl
          · intro l2 r2 hb
            simp only [begins_cons] at hb
            obtain ⟨b1, b2, -⟩ := hb
            rw [b1, hchi]
            simp only [Res.ok_bind, hge, hq]
            rw [storePhoton, if_neg h2, storePhoton, if_neg h2]
            simp only [b2]
            rfl
      · simp only [if_neg h1] at h ⊢
        simp only [Res.ok.injEq, Prod.mk.injEq] at h
        obtain ⟨rfl, rfl, rfl⟩ := h
        exact ⟨[], [], begins_nil _, rfl, rfl, fun l2 r2 _ => rfl⟩
  | continuous cfg classical =>
    simp only [Proc.interact] at h ⊢
    unfold continuousInteract at h ⊢
    by_cases h0 : (p.mass ==. Dbl.lit 0) || !p.isAlive
    · rw [if_pos h0] at h
      simp only [Res.ok.injEq, Prod.mk.injEq] at h
      obtain ⟨rfl, rfl, rfl⟩ := h
      exact ⟨[], [], begins_nil _, rfl, rfl, fun l2 r2 _ => by rw [if_pos h0]; rfl⟩
    · simp only [if_neg h0] at h ⊢
      by_cases h1 : (cfg.sampleFrac <. r.next.1) = true
      · rw [if_pos h1] at h
        simp only [Res.ok.injEq, Prod.mk.injEq] at h
        obtain ⟨rfl, rfl, rfl⟩ := h
        refine ⟨[r.next.1], [], by simp only [begins_cons, begins_nil, and_self], rfl, rfl,
          fun l2 r2 hb => ?_⟩
        rw [if_pos (by rw [(begins_cons.mp hb).1]; exact h1)]; rfl
      · rw [if_neg h1, Res.bind_eq_ok] at h
        obtain ⟨lc, hlc, h⟩ := h
        by_cases h2 : (cfg.eMin <. Dbl.lit 2 *. lc.2 *. p.gamma /. calculateEta cfg.field p) = true
        · rw [if_pos h2] at h
          simp only [Res.ok.injEq, Prod.mk.injEq] at h
          obtain ⟨rfl, rfl, rfl⟩ := h
          refine ⟨[r.next.1, r.next.2.next.1, r.next.2.next.2.next.1], [_],
            by simp only [begins_cons, begins_nil, and_self], rfl, rfl, fun l2 r2 hb => ?_⟩
          simp only [begins_cons] at hb
          obtain ⟨b1, b2, b3, -⟩ := hb
          rw [if_neg (by rw [b1]; exact h1), b2, hlc]
          simp only [Res.ok_bind, if_pos h2, b3]
          rfl
        · rw [if_neg h2] at h
          simp only [Res.ok.injEq, Prod.mk.injEq] at h
          obtain ⟨rfl, rfl, rfl⟩ := h
          refine ⟨[r.next.1, r.next.2.next.1], [],
            by simp only [begins_cons, begins_nil, and_self], rfl, rfl, fun l2 r2 hb => ?_⟩
          simp only [begins_cons] at hb
          obtain ⟨b1, b2, -⟩ := hb
          rw [if_neg (by rw [b1]; exact h1), b2, hlc]
          simp only [Res.ok_bind, if_neg h2]
          rfl
  | breitWheeler cfg =>
    simp only [Proc.interact] at h ⊢
    unfold bwInteract at h ⊢
    by_cases h0 : p.typeName ≠ "Photon" ∨ p.isAlive = false
    · rw [if_pos h0] at h
      simp only [Res.ok.injEq, Prod.mk.injEq] at h
      obtain ⟨rfl, rfl, rfl⟩ := h
      exact ⟨[], [], begins_nil _, rfl, rfl, fun l2 r2 _ => by rw [if_pos h0]; rfl⟩
    · simp only [if_neg h0] at h ⊢
      rw [Res.bind_eq_ok] at h
      obtain ⟨logt, hlogt, h⟩ := h
      rw [hlogt]
      simp only [Res.ok_bind]
      generalize bwDelta cfg.dt (bwChi cfg.field p) logt p.energy = delta at h ⊢
      by_cases h1 : ((p.updateOpticalDepth delta).opticalDepth <. Dbl.lit 0) = true
      · simp only [if_pos h1] at h ⊢
        rw [Res.bind_eq_ok] at h
        obtain ⟨split, hsplit, h⟩ := h
        simp only [Res.ok.injEq, Prod.mk.injEq] at h
        obtain ⟨rfl, rfl, rfl⟩ := h
        refine ⟨[r.next.1, r.next.2.next.1, r.next.2.next.2.next.1], [_, _],
          by simp only [begins_cons, begins_nil, and_self], rfl, rfl, fun l2 r2 hb => ?_⟩
        simp only [begins_cons] at hb
        obtain ⟨b1, b2, b3, -⟩ := hb
        rw [b1, hsplit]
        simp only [Res.ok_bind, b2, b3]
        rfl
      · simp only [if_neg h1] at h ⊢
        simp only [Res.ok.injEq, Prod.mk.injEq] at h
        obtain ⟨rfl, rfl, rfl⟩ := h
        exact ⟨[], [], begins_nil _, rfl, rfl, fun l2 r2 _ => rfl⟩

/-! ## What a visit reads -/

theorem PList.addAll_append (l : PList D) (xs ys : List (Particle D)) :
    (l.addAll xs).addAll ys = l.addAll (xs ++ ys) := by
  simp [PList.addAll]

theorem PList.addAll_name (l : PList D) (xs : List (Particle D)) : (l.addAll xs).name = l.name := by
  induction xs generalizing l with
  | nil => rfl
  | cons x xs ih =>
    have := ih (l.add x)
    rw [PList.add_name] at this
    exact this

theorem PList.ext' {l l' : PList D} (h1 : l.name = l'.name)
    (h2 : l.maxParticles = l'.maxParticles) (h3 : l.items = l'.items) : l = l' := by
  cases l; cases l'; simp_all

theorem PList.addAll_set (l : PList D) (xs : List (Particle D)) (k : Nat) (p : Particle D)
    (hk : k < l.items.length) : (l.addAll xs).set k p = (l.set k p).addAll xs := by
  refine PList.ext' ?_ ?_ ?_
  · rw [PList.addAll_name]; exact PList.addAll_name l xs
  · simp
  · rw [PList.set_items, PList.addAll_items, PList.addAll_items, PList.set_items, PList.set_max,
      List.length_set, List.set_append, if_pos hk]

theorem PList.addAll_get (l : PList D) (xs : List (Particle D)) (k : Nat) (p : Particle D)
    (hk : k < l.items.length) : ((l.set k p).addAll xs).items[k]? = some p := by
  rw [PList.addAll_items, PList.set_items, List.getElem?_append_left (by simpa using hk)]
  simp [hk]

theorem interactAll_local {procs : List (Proc D)} {k : Nat} {p : Particle D} {l l' : PList D}
    {r r' : Rng D} (hk : l.items[k]? = some p) (h : interactAll procs k l r = .ok (l', r')) :
    ∃ p' ds new, r.Begins ds ∧ r' = r.skip ds.length ∧ l' = (l.set k p').addAll new ∧
      ∀ (j : Nat) (l2 : PList D) (r2 : Rng D), l2.items[j]? = some p → r2.Begins ds →
        interactAll procs j l2 r2 = .ok ((l2.set j p').addAll new, r2.skip ds.length) := by
  induction procs generalizing p l r with
  | nil =>
    simp only [interactAll, Res.ok.injEq, Prod.mk.injEq] at h
    obtain ⟨rfl, rfl⟩ := h
    have same : ∀ (j : Nat) (l2 : PList D), l2.items[j]? = some p → l2.set j p = l2 := by
      intro j l2 hj
      refine PList.ext' rfl rfl ?_
      obtain ⟨hlt, hv⟩ := List.getElem?_eq_some_iff.mp hj
      rw [PList.set_items, ← hv]
      exact List.set_getElem_self hlt
    refine ⟨p, [], [], begins_nil _, rfl, (same k l hk).symm, fun j l2 r2 hj _ => ?_⟩
    rw [same j l2 hj]; rfl
  | cons proc rest ih =>
    simp only [interactAll] at h
    rw [Res.bind_eq_ok] at h
    obtain ⟨⟨l1, r1⟩, h1, h⟩ := h
    unfold interactAt at h1
    rw [Res.bind_eq_ok] at h1
    obtain ⟨q, hq, h1⟩ := h1
    rw [PList.get_eq_ok, hk] at hq
    cases Option.some.inj hq
    rw [Res.bind_eq_ok] at h1
    obtain ⟨⟨p1, l2, r2⟩, h2, h1⟩ := h1
    simp only [Res.ok.injEq, Prod.mk.injEq] at h1
    obtain ⟨rfl, rfl⟩ := h1
    obtain ⟨ds, new, hb, rfl, rfl, hl⟩ := interact_local h2
    obtain ⟨hlt, -⟩ := List.getElem?_eq_some_iff.mp hk
    rw [PList.addAll_set l new k p1 hlt] at h
    obtain ⟨p', ds', new', hb', rfl, rfl, hl'⟩ := ih (PList.addAll_get l new k p1 hlt) h
    have setset : ∀ (j : Nat) (l : PList D), j < l.items.length →
        (((l.set j p1).addAll new).set j p').addAll new' = (l.set j p').addAll (new ++ new') := by
      intro j l hj
      rw [PList.addAll_set _ _ _ _ (by simpa using hj), PList.addAll_append]
      congr 1
      exact PList.ext' rfl rfl (by simp)
    refine ⟨p', ds ++ ds', new ++ new', begins_append.mpr ⟨hb, hb'⟩, ?_, setset k l hlt, ?_⟩
    · rw [skip_skip, List.length_append]
    · intro j l2 r2 hj hb2
      obtain ⟨hb2, hb2'⟩ := begins_append.mp hb2
      obtain ⟨hlt2, -⟩ := List.getElem?_eq_some_iff.mp hj
      have e1 : interactAt proc j l2 r2 = .ok ((l2.set j p1).addAll new, r2.skip ds.length) := by
        unfold interactAt
        rw [PList.get_eq_ok.mpr hj]
        simp only [Res.ok_bind]
        rw [hl l2 r2 hb2]
        simp only [Res.ok_bind]
        rw [PList.addAll_set l2 new j p1 hlt2]
      rw [interactAll, e1]
      simp only [Res.ok_bind]
      rw [hl' j _ _ (PList.addAll_get l2 new j p1 hlt2) hb2', setset j l2 hlt2, skip_skip,
        List.length_append]

/-- A visit depends on the visited particle and the draws it uses only. -/
theorem visit_local {cfg : SimCfg D} {k : Nat} {p : Particle D} {l l' : PList D}
    {r r' : Rng D} (hk : l.items[k]? = some p) (h : visit cfg k l r = .ok (l', r')) :
    ∃ p' ds new, r.Begins ds ∧ r' = r.skip ds.length ∧ l' = (l.set k p').addAll new ∧
      ∀ (j : Nat) (l2 : PList D) (r2 : Rng D), l2.items[j]? = some p → r2.Begins ds →
        visit cfg j l2 r2 = .ok ((l2.set j p').addAll new, r2.skip ds.length) := by
  unfold visit at h
  rw [PList.get_eq_ok.mpr hk] at h
  simp only [Res.ok_bind] at h
  obtain ⟨hlt, -⟩ := List.getElem?_eq_some_iff.mp hk
  have setset : ∀ (j : Nat) (l : PList D) (a b : Particle D), (l.set j a).set j b = l.set j b := by
    intro j l a b
    exact PList.ext' rfl rfl (by simp)
  obtain ⟨p', ds, new, hb, hr, hl, hall⟩ := interactAll_local
    (p := pushParticle cfg.push cfg.field cfg.dt p) (by simp [hlt]) h
  rw [setset] at hl
  refine ⟨p', ds, new, hb, hr, hl, fun j l2 r2 hj hb2 => ?_⟩
  unfold visit
  rw [PList.get_eq_ok.mpr hj]
  simp only [Res.ok_bind]
  obtain ⟨hlt2, -⟩ := List.getElem?_eq_some_iff.mp hj
  rw [hall j _ r2 (by simp [hlt2]) hb2, setset]

/-! ## The loops, family by family -/

theorem PList.addAll_room (l : PList D) (xs : List (Particle D))
    (h : (l.addAll xs).items.length < l.maxParticles) :
    (l.addAll xs).items = l.items ++ xs := by
  rw [PList.addAll_items] at h ⊢
  rw [List.length_append, List.length_take] at h
  rw [List.take_of_length_le (by omega)]

theorem PList.addAll_fits (l : PList D) (xs : List (Particle D))
    (h : l.items.length + xs.length ≤ l.maxParticles) :
    (l.addAll xs).items = l.items ++ xs := by
  rw [PList.addAll_items, List.take_of_length_le (by omega)]

variable {τ : Type} [DecidableEq τ]

/-- The families after a visit of a particle of family `c`. -/
theorem family_visit {b c : τ} {m : List τ} {l : PList D} {k : Nat} {p' : Particle D}
    {new : List (Particle D)} (hlen : m.length = l.items.length) (hm : m[k]? = some c)
    (hroom : ((l.set k p').addAll new).items.length < l.maxParticles) :
    PList.family b (m ++ List.replicate new.length c) ((l.set k p').addAll new) =
      if c = b then ((PList.family b m l).set ((m.take k).count b) p').addAll new
      else PList.family b m l := by
  have e := PList.addAll_room (l.set k p') new (by simpa using hroom)
  have el : ((l.set k p').addAll new).items.length = l.items.length + new.length := by
    rw [e]; simp
  have es : select b (m ++ List.replicate new.length c) ((l.set k p').addAll new).items =
      select b m (l.items.set k p') ++ if c = b then new else [] := by
    rw [e, PList.set_items, select_append _ _ _ _ _ (by simpa using hlen), select_replicate]
  split
  · next hcb =>
    subst hcb
    refine PList.ext' ?_ ?_ ?_
    · rw [PList.addAll_name]; exact PList.addAll_name _ _
    · simp [PList.family]
    · have hle := select_length_le c m l.items
      rw [PList.addAll_fits]
      · show select c _ _ = _
        rw [es, if_pos rfl, select_set c m l.items k p' hm]; rfl
      · simp only [PList.family, PList.set_items, List.length_set, PList.set_max]; omega
  · next hcb =>
    refine PList.ext' ?_ ?_ ?_
    · exact PList.addAll_name _ _
    · simp [PList.family]
    · show select b _ _ = select b _ _
      rw [es, if_neg hcb, List.append_nil, select_set_other b c m l.items k p' hm hcb]

theorem loop_families {cfg : SimCfg D} {fuel : Nat} : ∀ {k : Nat} {l l' : PList D} {r r' : Rng D}
    {m : List τ}, particleLoop cfg fuel k l r = .ok (l', r') → l.maxParticles ≤ k + fuel →
    m.length = l.items.length → l'.items.length < l.maxParticles →
    ∃ e ds dm, dm.length = ds.length ∧ (m ++ e).length = l'.items.length ∧ r.Begins ds ∧
      r' = r.skip ds.length ∧
      ∀ (b : τ) (rb : Rng D) (fuel' : Nat), l.maxParticles ≤ (m.take k).count b + fuel' →
        rb.Begins (select b dm ds) →
        particleLoop cfg fuel' ((m.take k).count b) (l.family b m) rb =
          .ok (l'.family b (m ++ e), rb.skip (select b dm ds).length) := by
  -- a loop that has seen its whole list
  have fin : ∀ (b : τ) (k : Nat) (l : PList D) (m : List τ), m.length = l.items.length →
      l.items.length ≤ k → ∀ (rb : Rng D) (fuel' : Nat),
      particleLoop cfg fuel' ((m.take k).count b) (l.family b m) rb = .ok (l.family b m, rb) := by
    intro b k l m hm hk rb fuel'
    cases fuel' with
    | zero => rfl
    | succ f =>
      rw [particleLoop, if_neg]
      simp only [PList.nPart, PList.family]
      rw [select_length b m _ hm, List.take_of_length_le (by omega)]
      omega
  induction fuel with
  | zero =>
    intro k l l' r r' m h hf hm hroom
    simp only [particleLoop, Res.ok.injEq, Prod.mk.injEq] at h
    obtain ⟨rfl, rfl⟩ := h
    refine ⟨[], [], [], rfl, by simpa using hm, begins_nil _, rfl, fun b rb fuel' _ _ => ?_⟩
    rw [List.append_nil]
    exact fin b k l m hm (by omega) rb fuel'
  | succ fuel ih =>
    intro k l l' r r' m h hf hm hroom
    rw [particleLoop] at h
    split at h
    · next hk =>
      rw [Res.bind_eq_ok] at h
      obtain ⟨⟨l1, r1⟩, h1, h⟩ := h
      replace hk : k < l.items.length := hk
      have g1 := visit_grows h1
      have g2 := particleLoop_grows h
      obtain ⟨p', ds, new, hb, rfl, rfl, hv⟩ := visit_local (List.getElem?_eq_getElem hk) h1
      have hr1 : ((l.set k p').addAll new).items.length < l.maxParticles :=
        lt_of_le_of_lt g2.length hroom
      have e1 := PList.addAll_room (l.set k p') new (by simpa using hr1)
      obtain ⟨c, hc⟩ : ∃ c, m[k]? = some c := ⟨_, List.getElem?_eq_getElem (by omega)⟩
      have hm1 : (m ++ List.replicate new.length c).length =
          ((l.set k p').addAll new).items.length := by
        rw [e1]; simp [hm]
      obtain ⟨e, ds', dm', hd', he, hb', rfl, hl⟩ := ih (m := m ++ List.replicate new.length c) h
        (by rw [g1.max]; omega) hm1 (by rw [g1.max]; exact hroom)
      refine ⟨List.replicate new.length c ++ e, ds ++ ds', List.replicate ds.length c ++ dm',
        by simp [hd'], by rw [← List.append_assoc]; exact he, begins_append.mpr ⟨hb, hb'⟩,
        by rw [skip_skip, List.length_append], ?_⟩
      intro b rb fuel' hf' hrb
      rw [select_append _ _ _ _ _ (by simp), select_replicate] at hrb ⊢
      have htake : (m ++ List.replicate new.length c).take (k + 1) = m.take (k + 1) := by
        rw [List.take_append_of_le_length (by omega)]
      have hl' := hl b
      rw [htake, count_take_succ b c m k hc, family_visit hm hc hr1, g1.max] at hl'
      rw [← List.append_assoc]
      by_cases hcb : c = b
      · subst hcb
        simp only [if_true] at hl' hrb ⊢
        obtain ⟨hrb, hrb'⟩ := begins_append.mp hrb
        have hget := select_get c m l.items k _ hc (List.getElem?_eq_getElem hk)
        obtain ⟨hlt, -⟩ := List.getElem?_eq_some_iff.mp hget
        have hle := select_length_le c m l.items
        have hle' := g1.length
        cases fuel' with
        | zero => omega
        | succ f =>
          rw [particleLoop, if_pos (by exact hlt), hv _ (l.family c m) rb hget hrb]
          simp only [Res.ok_bind]
          rw [hl' _ f (by omega) hrb', skip_skip, List.length_append]
      · rw [if_neg hcb] at hl' hrb ⊢
        simp only [if_neg hcb, Nat.add_zero, List.nil_append] at hl' hrb ⊢
        exact hl' rb fuel' hf' hrb
    · next hk =>
      simp only [Res.ok.injEq, Prod.mk.injEq] at h
      obtain ⟨rfl, rfl⟩ := h
      replace hk : ¬ k < l.items.length := hk
      refine ⟨[], [], [], rfl, by simpa using hm, begins_nil _, rfl, fun b rb fuel' _ _ => ?_⟩
      rw [List.append_nil]
      exact fin b k l m hm (by omega) rb fuel'

theorem run_families {cfg : SimCfg D} {s s' : EvState D} {n : Nat} (h : Run cfg s n (.ok s'))
    (hroom : s'.list.items.length < s'.list.maxParticles) :
    ∀ (m : List τ), m.length = s.list.items.length →
    ∃ e ds dm, dm.length = ds.length ∧ (m ++ e).length = s'.list.items.length ∧
      s.rng.Begins ds ∧ s'.rng = s.rng.skip ds.length ∧
      ∀ (b : τ) (rb : Rng D), rb.Begins (select b dm ds) →
        Run cfg ⟨s.list.family b m, rb, s.time, 0, []⟩ n
          (.ok ⟨s'.list.family b (m ++ e), rb.skip (select b dm ds).length, s'.time, 0, []⟩) := by
  generalize ho : (Res.ok s' : Res (EvState D)) = o at h
  induction h with
  | done h0 =>
    cases ho
    intro m hm
    refine ⟨[], [], [], rfl, by simpa using hm, begins_nil _, rfl, fun b rb _ => ?_⟩
    rw [List.append_nil]
    exact .done h0
  | @step s s1 n o h0 h1 h2 ih =>
    subst ho
    intro m hm
    obtain ⟨hadv, ht⟩ := timeStep_advance h1
    have g1 := particleLoop_grows hadv
    have g2 := reach_grows h2.reach
    have hr1 : s1.list.items.length < s.list.maxParticles := by
      have := g2.length
      rw [g2.max, g1.max] at hroom
      omega
    obtain ⟨e, ds, dm, hd, he, hb, hr, hl⟩ := loop_families hadv (by omega) hm hr1
    obtain ⟨e', ds', dm', hd', he', hb', hr', hl'⟩ := ih rfl (m ++ e) he
    rw [hr] at hb' hr'
    refine ⟨e ++ e', ds ++ ds', dm ++ dm', by simp [hd, hd'], by rw [← List.append_assoc]; exact he',
      begins_append.mpr ⟨hb, hb'⟩, by rw [hr', skip_skip, List.length_append], ?_⟩
    intro b rb hrb
    rw [select_append _ _ _ _ _ hd] at hrb ⊢
    obtain ⟨hrb, hrb'⟩ := begins_append.mp hrb
    have hs := hl b rb s.list.maxParticles (by omega) hrb
    rw [List.take_zero, List.count_nil] at hs
    have step : timeStep cfg ⟨s.list.family b m, rb, s.time, 0, []⟩ =
        .ok ⟨s1.list.family b (m ++ e), rb.skip (select b dm ds).length, s1.time, 0, []⟩ := by
      unfold timeStep histStep advance
      simp only [List.getElem?_nil, Res.ok_bind]
      rw [show (s.list.family b m).maxParticles = s.list.maxParticles from rfl, hs]
      simp only [Res.ok_bind, ht]
    refine .step h0 step ?_
    have := hl' b _ hrb'
    rw [skip_skip, ← List.length_append] at this
    rwa [← List.append_assoc]
  | abort _ _ h3 => exact absurd ho.symm (h3 _)

end QED
