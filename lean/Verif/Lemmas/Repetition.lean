import Verif.Lemmas.Independence
import Verif.Lemmas.Renaming
import Verif.Spec.Independence

set_option autoImplicit false

/-!
# Events one after another

Used by C156 and C157.
-/

namespace QED.Independence

open Dbl MCTools MeasureTheory

theorem next_local (cfg : SimCfg ℝ) (fuel : Nat) (s : Source ℝ) :
    Local (fun _ : PList ℝ => True) (fun l _ => l) (most cfg fuel) fun r => nextEvent cfg fuel s r := by
  refine Local.bind (generate_local s) (Z := fun a => Timed.bind (timeLoop cfg fuel (.init a.1 a.2.2 []))
    fun e => some (.ok e.list)) (fun r => rfl) fun a ha => ?_
  refine Local.bind (L := 0) (timeLoop_local cfg fuel (.init a.1 ⟨fun _ => Dbl.lit 0, 0⟩ []) ha.1) (fun r => rfl)
    fun e _ => ?_
  exact Local.ret (a := e.list) trivial fun r => rfl

/-- What the next event leaves: its particles, the source and the generator. -/
noncomputable def wholeEvent (cfg : SimCfg ℝ) (fuel : Nat) (s : Source ℝ) (r : Rng ℝ) : Timed (PList ℝ × Source ℝ × Rng ℝ) :=
  Timed.bind (some (s.generateList r)) fun x =>
    Timed.bind (timeLoop cfg fuel (.init x.1 x.2.2 [])) fun e => some (.ok (e.list, x.2.1, e.rng))

theorem whole_local (cfg : SimCfg ℝ) (fuel : Nat) (s : Source ℝ) :
    Local (fun a : PList ℝ × Source ℝ => a.2 = { s with partCount := s.partCount + 1 }) putL (most cfg fuel)
      fun r => wholeEvent cfg fuel s r := by
  refine Local.bind (generate_local s) (Z := fun a => Timed.bind (timeLoop cfg fuel (.init a.1 a.2.2 []))
    fun e => some (.ok (e.list, a.2.1, e.rng))) (fun r => rfl) fun a ha => ?_
  refine Local.bind (L := 0) (timeLoop_local cfg fuel (.init a.1 ⟨fun _ => Dbl.lit 0, 0⟩ []) ha.1)
    (Z := fun e => some (.ok (e.list, a.2, e.rng))) (fun r => rfl) fun e _ => ?_
  exact Local.ret (a := (e.list, a.2)) ha.2 fun r => rfl

theorem whole_iff (cfg : SimCfg ℝ) (fuel : Nat) (s : Source ℝ) (r : Rng ℝ) (x : PList ℝ × Source ℝ × Rng ℝ) :
    wholeEvent cfg fuel s r = some (.ok x) ↔ ∃ l r' e, s.generateList r = .ok (l, x.2.1, r') ∧
      timeLoop cfg fuel (.init l r' []) = some (.ok e) ∧ e.list = x.1 ∧ e.rng = x.2.2 := by
  unfold wholeEvent
  cases hg : s.generateList r with
  | ok y =>
    show Timed.bind (timeLoop cfg fuel (.init y.1 y.2.2 [])) (fun e => some (.ok (e.list, y.2.1, e.rng))) = _ ↔ _
    cases ht : timeLoop cfg fuel (.init y.1 y.2.2 []) with
    | none =>
      refine ⟨fun h => (by cases h), ?_⟩
      rintro ⟨l, r', e, h, h', -⟩
      cases h
      rw [ht] at h'
      cases h'
    | some o =>
      cases o with
      | ok e =>
        refine ⟨fun h => ?_, ?_⟩
        · cases h
          exact ⟨y.1, y.2.2, e, rfl, ht, rfl, rfl⟩
        · rintro ⟨l, r', e', h, h', h1, h2⟩
          cases h
          rw [ht] at h'
          cases h'
          rcases x with ⟨x1, x2, x3⟩
          simp only at h1 h2
          subst h1 h2
          rfl
      | exit c | throw c | ub c =>
        refine ⟨fun h => (by cases h), ?_⟩
        rintro ⟨l, r', e, h, h', -⟩
        cases h
        rw [ht] at h'
        cases h'
  | exit c | throw c | ub c =>
    refine ⟨fun h => (by cases h), ?_⟩
    rintro ⟨l, r', e, h, -⟩
    cases h

theorem nextIs_iff (cfg : SimCfg ℝ) (fuel : Nat) (B : PList ℝ → Prop) (s : Source ℝ) (r : Rng ℝ) :
    NextIs cfg fuel B s r ↔ ∃ x, wholeEvent cfg fuel s r = some (.ok x) ∧ B x.1 := by
  have h : nextEvent cfg fuel s r = Timed.bind (wholeEvent cfg fuel s r) fun x => some (.ok x.1) := by
    unfold nextEvent wholeEvent
    cases s.generateList r with
    | ok y =>
      show Timed.bind (timeLoop cfg fuel (.init y.1 y.2.2 [])) (fun e => some (.ok e.list)) =
        Timed.bind (Timed.bind (timeLoop cfg fuel (.init y.1 y.2.2 [])) fun e => some (.ok (e.list, y.2.1, e.rng))) _
      cases timeLoop cfg fuel (.init y.1 y.2.2 []) with
      | none => rfl
      | some o => cases o <;> rfl
    | _ => rfl
  unfold NextIs
  rw [h]
  cases wholeEvent cfg fuel s r with
  | none =>
    constructor
    · rintro ⟨l, h, -⟩
      cases h
    · rintro ⟨l, h, -⟩
      cases h
  | some o =>
    cases o with
    | ok x =>
      constructor
      · rintro ⟨l, h, hB⟩
        cases h
        exact ⟨x, rfl, hB⟩
      · rintro ⟨x, h, hB⟩
        cases h
        exact ⟨_, rfl, hB⟩
    | exit c | throw c | ub c =>
      constructor
      · rintro ⟨l, h, -⟩
        cases h
      · rintro ⟨l, h, -⟩
        cases h

theorem nextAre_cons (cfg : SimCfg ℝ) (fuel : Nat) (B : PList ℝ → Prop) (Bs : List (PList ℝ → Prop))
    (s : Source ℝ) (r : Rng ℝ) : NextAre cfg fuel (B :: Bs) s r ↔
      ∃ x, wholeEvent cfg fuel s r = some (.ok x) ∧ B x.1 ∧ NextAre cfg fuel Bs x.2.1 x.2.2 := by
  constructor
  · rintro ⟨l, s', r', e, hg, ht, hB, hn⟩
    exact ⟨(e.list, s', e.rng), (whole_iff ..).mpr ⟨l, r', e, hg, ht, rfl, rfl⟩, hB, hn⟩
  · rintro ⟨x, hx, hB, hn⟩
    obtain ⟨l, r', e, hg, ht, h1, h2⟩ := (whole_iff ..).mp hx
    exact ⟨l, _, r', e, hg, ht, h1 ▸ hB, h2 ▸ hn⟩

theorem indic_le (p : Prop) : indic p ≤ 1 := by unfold indic; split_ifs <;> simp

theorem indic_and (p q : Prop) : indic (p ∧ q) = indic p * indic q := by
  unfold indic
  split_ifs <;> simp_all

theorem product_at (cfg : SimCfg ℝ) (fuel : Nat) {M : Nat} (hM : most cfg fuel ≤ M) (Bs : List (PList ℝ → Prop)) :
    ∀ (s : Source ℝ) (N : Nat) (pre : List ℝ), most cfg fuel * Bs.length ≤ N →
      (average N fun us => indic (NextAre cfg fuel Bs s (reading pre us))) =
        (Bs.mapIdx fun i B =>
          likelihood M fun us => NextIs cfg fuel B { s with partCount := s.partCount + i } (fresh us)).prod := by
  induction Bs with
  | nil =>
    intro s N pre _
    refine Eq.trans ?_ (average_const N 1)
    congr 1
    funext us
    exact if_pos trivial
  | cons B Bs ih =>
    intro s N pre hN
    rw [List.length_cons, Nat.mul_succ] at hN
    have hK := ih { s with partCount := s.partCount + 1 }
    set v := (Bs.mapIdx fun i B => likelihood M fun us =>
      NextIs cfg fuel B { s with partCount := s.partCount + 1 + i } (fresh us)).prod with hv
    have hvt : v ≠ ⊤ := by
      rw [← hK _ [] le_rfl]
      exact ne_top_of_le_ne_top ENNReal.one_ne_top (average_le_one fun us => indic_le _)
    have h := average_product (L := most cfg fuel * Bs.length) (v := v) (whole_local cfg fuel s)
      (fun o => indic (∃ x, o = some (.ok x) ∧ B x.1))
      (fun o => indic (∃ x, o = some (.ok x) ∧ B x.1 ∧ NextAre cfg fuel Bs x.2.1 x.2.2))
      (fun r => indic (NextAre cfg fuel Bs { s with partCount := s.partCount + 1 } r))
      (fun a r r' => congrArg indic (propext ⟨fun ⟨x, hx, hA⟩ => ⟨putL a r', rfl, by cases hx; exact hA⟩,
        fun ⟨x, hx, hA⟩ => ⟨putL a r, rfl, by cases hx; exact hA⟩⟩))
      (fun b => ne_top_of_le_ne_top ENNReal.one_ne_top (indic_le _))
      (fun a r ha => by
        refine Eq.trans (b := indic (B a.1 ∧ NextAre cfg fuel Bs { s with partCount := s.partCount + 1 } r))
          (congrArg indic (propext ⟨?_, ?_⟩)) ((indic_and _ _).trans
            (congrArg (indic · * _) (propext ⟨fun hA => ⟨putL a r, rfl, hA⟩, ?_⟩)))
        · rintro ⟨x, hx, hA, hn⟩
          cases hx
          exact ⟨hA, ha ▸ hn⟩
        · exact fun ⟨hA, hn⟩ => ⟨putL a r, rfl, hA, by rw [← ha] at hn; exact hn⟩
        · rintro ⟨x, hx, hA⟩
          cases hx
          exact hA)
      (fun o ho => ⟨if_neg fun ⟨x, hx, _⟩ => ho x hx, if_neg fun ⟨x, hx, _⟩ => ho x hx⟩) hvt
      (fun N pre hN => hK N pre hN) N pre (by omega)
    obtain ⟨w, hw⟩ := average_local (whole_local cfg fuel s) (fun o => indic (∃ x, o = some (.ok x) ∧ B x.1))
      (fun a r r' => congrArg indic (propext ⟨fun ⟨x, hx, hA⟩ => ⟨putL a r', rfl, by cases hx; exact hA⟩,
        fun ⟨x, hx, hA⟩ => ⟨putL a r, rfl, by cases hx; exact hA⟩⟩))
    have hw1 : (likelihood M fun us => NextIs cfg fuel B s (fresh us)) = w := by
      refine Eq.trans ?_ (hw M [] hM)
      unfold likelihood
      congr 1
      funext us
      exact congrArg indic (propext (nextIs_iff ..))
    rw [List.mapIdx_cons, List.prod_cons]
    refine Eq.trans ?_ (h.trans ?_)
    · congr 1
      funext us
      exact congrArg indic (propext (nextAre_cons ..))
    · rw [hw N pre (by omega)]
      congr 1
      · exact hw1.symm
      · rw [hv]
        congr 1
        congr 1
        funext i B
        rw [show s.partCount + 1 + i = s.partCount + (i + 1) by omega]

theorem generate_alike {s : Source ℝ} {i j : Nat} (hj : j ≠ s.nPart) (h : s.SameSample i j)
    {r r' : Rng ℝ} {l : PList ℝ} {s' : Source ℝ}
    (hg : Source.generateList { s with partCount := i } r = .ok (l, s', r')) :
    Source.generateList { s with partCount := j } r =
      .ok (Renaming.ren (toString j) l, { s with partCount := j + 1 }, r') := by
  obtain ⟨h1, h2, h3, h4, h5, h6⟩ := h
  unfold Source.generateList rd at hg ⊢
  dsimp only at hg ⊢
  rw [if_neg hj]
  split at hg
  · cases hg
  · rw [← h1, ← h2, ← h3, ← h4, ← h5, ← h6]
    obtain ⟨x, hx, hg⟩ := Res.bind_eq_ok.1 hg
    obtain ⟨y, hy, hg⟩ := Res.bind_eq_ok.1 hg
    obtain ⟨z, hz, hg⟩ := Res.bind_eq_ok.1 hg
    obtain ⟨θ, hθ, hg⟩ := Res.bind_eq_ok.1 hg
    obtain ⟨φ, hφ, hg⟩ := Res.bind_eq_ok.1 hg
    obtain ⟨e, he, hg⟩ := Res.bind_eq_ok.1 hg
    obtain ⟨p, hp, hg⟩ := Res.bind_eq_ok.1 hg
    rw [hx, hy, hz, hθ, hφ, he]
    have hp' : Source.mkParticle { s with partCount := j } e ((s.rotation.mulVec ⟨x, y, z⟩).add s.position)
        (s.rotation.mulVec (Source.sphere θ φ)) r.next.1 = .ok p := hp
    cases hg
    show Source.mkParticle _ _ _ _ _ >>= _ = _
    rw [hp']
    show Res.ok _ = _
    rw [← Renaming.add_ren]
    rfl

theorem next_alike (cfg : SimCfg ℝ) (fuel : Nat) {s : Source ℝ} {i j : Nat} (hj : j ≠ s.nPart)
    (h : s.SameSample i j) (C : List (Particle ℝ) → Prop) (r : Rng ℝ)
    (hn : NextIs cfg fuel (fun l => C l.items) { s with partCount := i } r) :
    NextIs cfg fuel (fun l => C l.items) { s with partCount := j } r := by
  rw [nextIs_iff] at hn ⊢
  obtain ⟨x, hx, hC⟩ := hn
  obtain ⟨l, r', e, hg, ht, h1, h2⟩ := (whole_iff ..).mp hx
  refine ⟨(Renaming.ren (toString j) e.list, { s with partCount := j + 1 }, e.rng),
    (whole_iff ..).mpr ⟨_, _, _, generate_alike hj h hg,
      Renaming.timeLoop_ren (toString j) (s := .init l r' []) rfl ht, rfl, rfl⟩, ?_⟩
  show C e.list.items
  rw [h1]
  exact hC

end QED.Independence
