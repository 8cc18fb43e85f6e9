import Verif.Spec.Parallel
import Verif.Model.ProgramMpi
import Verif.Lemmas.ProgramRun
import Verif.Lemmas.MpiRun

set_option linter.unusedSectionVars false
set_option autoImplicit false

/-!
# Lemmas on runs with several ranks
-/

namespace QED

open Dbl MCTools Numerics OutMgr Main OutSpec MpiSpec

variable {D : Type} [Dbl D]

/-! ## Filling a histogram changes its counts only -/

/-- `h'` differs from `h` in its counts only. -/
structure Frame (h h' : Hist D) : Prop where
  name : h'.name = h.name
  particle : h'.particle = h.particle
  time : h'.time = h.time
  nBins : h'.nBins = h.nBins
  centres : h'.centres = h.centres
  values : h'.values.length = h.values.length

theorem Frame.rfl' (h : Hist D) : Frame h h := ⟨rfl, rfl, rfl, rfl, rfl, rfl⟩

theorem Frame.trans {a b c : Hist D} (h : Frame a b) (g : Frame b c) : Frame a c :=
  ⟨g.name.trans h.name, g.particle.trans h.particle, g.time.trans h.time, g.nBins.trans h.nBins,
    g.centres.trans h.centres, g.values.trans h.values⟩

theorem count_frame {h h' : Hist D} {x : D} (hc : h.count x = .ok h') : Frame h h' := by
  unfold Hist.count at hc
  dsimp only at hc
  obtain ⟨a, -, hc⟩ := Res.bind_eq_ok.mp hc
  obtain ⟨b, -, hc⟩ := Res.bind_eq_ok.mp hc
  split at hc
  · obtain ⟨i, -, hc⟩ := Res.bind_eq_ok.mp hc
    obtain ⟨v, -, hc⟩ := Res.bind_eq_ok.mp hc
    rw [← Res.ok.inj hc]
    exact ⟨rfl, rfl, rfl, rfl, rfl, by simp⟩
  · rw [← Res.ok.inj hc]
    exact ⟨rfl, rfl, rfl, rfl, rfl, rfl⟩

theorem fillHist_frame {ps : List (Particle D)} : ∀ {h h' : Hist D}, fillHist h ps = .ok h' →
    Frame h h' := by
  induction ps with
  | nil => intro h h' hc; rw [← Res.ok.inj hc]; exact .rfl' _
  | cons p ps ih =>
    intro h h' hc
    unfold fillHist at hc
    dsimp only at hc
    split at hc
    · obtain ⟨g, hg, hc⟩ := Res.bind_eq_ok.mp hc
      refine Frame.trans ?_ (ih hc)
      unfold Hist.appParticle at hg
      split at hg
      · cases hg
      · exact count_frame hg
    · exact ih hc

theorem frames_refl (hs : List (Hist D)) : List.Forall₂ Frame hs hs :=
  List.forall₂_same.mpr fun h _ => .rfl' h

theorem frames_trans {a b c : List (Hist D)} (h : List.Forall₂ Frame a b)
    (g : List.Forall₂ Frame b c) : List.Forall₂ Frame a c := by
  induction h generalizing c with
  | nil => exact g
  | cons h1 _ ih =>
    cases g with
    | cons g1 g2 => exact .cons (h1.trans g1) (ih g2)

theorem frames_set {hs : List (Hist D)} {i : Nat} {h h' : Hist D} (hi : hs[i]? = some h)
    (hf : Frame h h') : List.Forall₂ Frame hs (hs.set i h') := by
  induction hs generalizing i with
  | nil => cases hi
  | cons a hs ih =>
    cases i with
    | zero =>
      have : a = h := by simpa using hi
      subst this
      exact .cons hf (frames_refl hs)
    | succ i => exact .cons (.rfl' a) (ih (by simpa using hi))

theorem histStep_frames {s s' : EvState D} (h : histStep s = .ok s') :
    List.Forall₂ Frame s.hists s'.hists := by
  unfold histStep at h
  split at h
  · rw [← Res.ok.inj h]; exact frames_refl _
  · next g hg =>
    split at h
    · obtain ⟨g', hg', h⟩ := Res.bind_eq_ok.mp h
      rw [← Res.ok.inj h]
      exact frames_set hg (fillHist_frame hg')
    · rw [← Res.ok.inj h]; exact frames_refl _

theorem timeLoop_frames {cfg : SimCfg D} : ∀ {fuel : Nat} {s e : EvState D},
    timeLoop cfg fuel s = some (.ok e) → List.Forall₂ Frame s.hists e.hists := by
  intro fuel
  induction fuel with
  | zero =>
    intro s e h
    unfold timeLoop at h
    split at h
    · cases h
    · rw [← Res.ok.inj (Option.some.inj h)]; exact frames_refl _
  | succ fuel ih =>
    intro s e h
    unfold timeLoop at h
    split at h
    · cases hst : timeStep cfg s with
      | ok s' =>
        rw [hst] at h
        refine frames_trans ?_ (ih h)
        unfold timeStep at hst
        obtain ⟨s1, h1, hst⟩ := Res.bind_eq_ok.mp hst
        obtain ⟨⟨l, r⟩, -, hst⟩ := Res.bind_eq_ok.mp hst
        rw [← Res.ok.inj hst]
        exact (histStep_frames h1 :)
      | exit c => rw [hst] at h; cases h
      | throw w => rw [hst] at h; cases h
      | ub w => rw [hst] at h; cases h
    · rw [← Res.ok.inj (Option.some.inj h)]; exact frames_refl _

theorem fillRest_frames {l : PList D} : ∀ {hs hs' : List (Hist D)} {c : Nat},
    fillRest l c hs = .ok hs' → List.Forall₂ Frame hs hs' := by
  intro hs
  induction hs with
  | nil => intro hs' c h; unfold fillRest at h; rw [← Res.ok.inj h]; exact .nil
  | cons a hs ih =>
    intro hs' c h
    cases c with
    | zero =>
      unfold fillRest at h
      obtain ⟨b, hb, h⟩ := Res.bind_eq_ok.mp h
      obtain ⟨bs, hbs, h⟩ := Res.bind_eq_ok.mp h
      rw [← Res.ok.inj h]
      exact .cons (fillHist_frame hb) (ih hbs)
    | succ c =>
      unfold fillRest at h
      obtain ⟨bs, hbs, h⟩ := Res.bind_eq_ok.mp h
      rw [← Res.ok.inj h]
      exact .cons (.rfl' a) (ih hbs)

/-! ## The events of a source -/

theorem Timed.bind_ok {α β : Type} {x : Timed α} {f : α → Timed β} {b : β}
    (h : (x >>= f) = (some (.ok b) : Timed β)) : ∃ a, x = (some (.ok a) : Timed α) ∧
      f a = (some (.ok b) : Timed β) := by
  match x, h with
  | some (.ok a), h => exact ⟨a, rfl, h⟩

/-- One event, taken apart. -/
theorem simEvents_succ {cfg : SimCfg D} {fuel k : Nat} {s : Source D} {r r' : Rng D}
    {hs hs' : List (Hist D)} {ev : RankEvents D}
    (h : simEvents cfg fuel (k + 1) s r hs = (some (.ok (ev, r', hs')) : Timed _)) :
    ∃ l s1 r1 e hs1 ev1, s.generateList r = .ok (l, s1, r1) ∧
      timeLoop cfg fuel (.init l r1 hs) = some (.ok e) ∧
      fillRest e.list e.histCount e.hists = .ok hs1 ∧
      simEvents cfg fuel k s1 e.rng hs1 = (some (.ok (ev1, r', hs')) : Timed _) ∧
      ev = ⟨l.items.take 1 ++ ev1.firsts, e.list.items :: ev1.finals⟩ := by
  unfold simEvents at h
  obtain ⟨⟨l, s1, r1⟩, h1, h⟩ := Timed.bind_ok h
  obtain ⟨e, h2, h⟩ := Timed.bind_ok h
  obtain ⟨hs1, h3, h⟩ := Timed.bind_ok h
  obtain ⟨⟨ev1, r2, hs2⟩, h4, h⟩ := Timed.bind_ok h
  have h := Res.ok.inj (Option.some.inj h)
  simp only [Prod.mk.injEq] at h
  obtain ⟨rfl, rfl, rfl⟩ := h
  exact ⟨l, s1, r1, e, hs1, ev1, Option.some.inj h1, h2, Option.some.inj h3, h4, rfl⟩

/-- What is known of the generated list and of the list at the end of an event. -/
theorem event_lists {cfg : SimCfg D} {fuel : Nat} {s s1 : Source D} {r r1 : Rng D} {l : PList D}
    {e : EvState D} {hs : List (Hist D)} (hf : s.Full) (hc : s.partCount < s.nPart)
    (h1 : s.generateList r = .ok (l, s1, r1))
    (h2 : timeLoop cfg fuel (.init l r1 hs) = some (.ok e)) :
    ∃ p, l.items = [p] ∧ s1 = { s with partCount := s.partCount + 1 } ∧
      e.list.items.length < 2 ^ 29 := by
  rcases generateList_total s hf hc r with h | ⟨p, l', r', h, hl, hmax⟩
  · rw [h1] at h; cases h
  · rw [h1] at h
    have h := Res.ok.inj h
    simp only [Prod.mk.injEq] at h
    obtain ⟨rfl, rfl, rfl⟩ := h
    refine ⟨p, hl, rfl, ?_⟩
    obtain ⟨k, hk⟩ := (timeLoop_iff_run cfg _ _).mp ⟨fuel, h2⟩
    have hg := reach_grows (run_ok_iff.mp hk).1.reach
    have hcap : e.list.items.length ≤ PList.defaultMax := by
      rw [← hmax]; exact hg.cap (by show l.items.length ≤ l.maxParticles; rw [hl, hmax]; show 1 ≤ PList.defaultMax; decide)
    exact lt_of_le_of_lt hcap defaultMax_small

theorem full_succ {s : Source D} (hf : s.Full) : ({ s with partCount := s.partCount + 1 } : Source D).Full :=
  ⟨hf.x, hf.y, hf.z, hf.theta, hf.phi, hf.energy⟩

theorem simEvents_frames {cfg : SimCfg D} {fuel : Nat} : ∀ {k : Nat} {s : Source D} {r r' : Rng D}
    {hs hs' : List (Hist D)} {ev : RankEvents D},
    simEvents cfg fuel k s r hs = (some (.ok (ev, r', hs')) : Timed _) → List.Forall₂ Frame hs hs' := by
  intro k
  induction k with
  | zero =>
    intro s r r' hs hs' ev h
    have h := Res.ok.inj (Option.some.inj h)
    simp only [Prod.mk.injEq] at h
    rw [h.2.2]; exact frames_refl _
  | succ k ih =>
    intro s r r' hs hs' ev h
    obtain ⟨l, s1, r1, e, hs1, ev1, -, h2, h3, h4, -⟩ := simEvents_succ h
    exact frames_trans (timeLoop_frames h2) (frames_trans (fillRest_frames h3) (ih h4))

theorem simEvents_lengths {cfg : SimCfg D} {fuel : Nat} : ∀ {k : Nat} {s : Source D} {r r' : Rng D}
    {hs hs' : List (Hist D)} {ev : RankEvents D}, s.Full → s.partCount + k = s.nPart →
    simEvents cfg fuel k s r hs = (some (.ok (ev, r', hs')) : Timed _) →
    ev.firsts.length = k ∧ ev.finals.length = k := by
  intro k
  induction k with
  | zero =>
    intro s r r' hs hs' ev _ _ h
    have h := Res.ok.inj (Option.some.inj h)
    simp only [Prod.mk.injEq] at h
    rw [← h.1]; exact ⟨rfl, rfl⟩
  | succ k ih =>
    intro s r r' hs hs' ev hf hc h
    obtain ⟨l, s1, r1, e, hs1, ev1, h1, h2, h3, h4, rfl⟩ := simEvents_succ h
    obtain ⟨p, hl, rfl, -⟩ := event_lists hf (by omega) h1 h2
    obtain ⟨a, b⟩ := ih (full_succ hf) (by dsimp only; omega) h4
    rw [hl]
    exact ⟨by simp [a], by simp [b]⟩

/-- Without output, the events of a source leave the manager's tables alone. -/
theorem runEvents_plain {cfg : SimCfg D} {fuel : Nat} (tracking : Bool) : ∀ {k : Nat} (j : Nat) {s : Source D}
    {r r' : Rng D} {hs hs' : List (Hist D)} {ev : RankEvents D} (out : OutMgr D),
    simEvents cfg fuel k s r hs = (some (.ok (ev, r', hs')) : Timed _) →
    ∃ s' out', runEvents cfg fuel false tracking k j (s, ⟨r, hs, out⟩) =
      (some (.ok (s', ⟨r', hs', out'⟩)) : Timed _) := by
  intro k
  induction k with
  | zero =>
    intro j s r r' hs hs' ev out h
    have h := Res.ok.inj (Option.some.inj h)
    simp only [Prod.mk.injEq] at h
    obtain ⟨-, rfl, rfl⟩ := h
    exact ⟨s, out, rfl⟩
  | succ k ih =>
    intro j s r r' hs hs' ev out h
    obtain ⟨l, s1, r1, e, hs1, ev1, h1, h2, h3, h4, -⟩ := simEvents_succ h
    unfold runEvents runEvent
    rw [h1, Timed.ok_bind]
    dsimp only
    rw [storePrimaryIf, if_neg (by decide), Timed.ok_bind]
    rw [h2]
    obtain ⟨s', out', he⟩ := ih (j + 1) (storeTrackIf tracking out e.list j) h4
    refine ⟨s', out', ?_⟩
    rw [← he]
    change ((Timed.lift (fillRest e.list e.histCount e.hists) >>= _) >>= _) = _
    rw [h3]
    rfl

/-- With output, the manager is told of every event. -/
theorem runEvents_stores {cfg : SimCfg D} {fuel n : Nat} (tracking : Bool) : ∀ {k : Nat} (j : Nat) {s : Source D}
    {r r' : Rng D} {hs hs' : List (Hist D)} {ev : RankEvents D} (out : OutMgr D), s.Full →
    s.partCount + k = s.nPart → j + k = n → out.Sized n →
    simEvents cfg fuel k s r hs = (some (.ok (ev, r', hs')) : Timed _) →
    ∃ s' out' cs, ∃ (start fin : Nat → PList D) (first : Nat → Particle D),
      runEvents cfg fuel true tracking k j (s, ⟨r, hs, out⟩) =
        (some (.ok (s', ⟨r', hs', out'⟩)) : Timed _) ∧
      out.calls cs = .ok out' ∧
      (∀ c ∈ cs, ∃ i, j ≤ i ∧ i < n ∧ (c = .storePrimary (start i) i ∨ c = .storeFinal (fin i) i ∨
        ∃ l, c = .storeTrack l i)) ∧
      (∀ i, j ≤ i → i < n → (start i).items[0]? = some (first i) ∧
        Call.storePrimary (start i) i ∈ cs ∧ Call.storeFinal (fin i) i ∈ cs ∧
        (fin i).items.length < 2 ^ 29) ∧
      ev.firsts = (List.range k).map (fun i => first (j + i)) ∧
      ev.finals = (List.range k).map fun i => (fin (j + i)).items := by
  intro k
  induction k with
  | zero =>
    intro j s r r' hs hs' ev out _ _ hj _ h
    have h := Res.ok.inj (Option.some.inj h)
    simp only [Prod.mk.injEq] at h
    obtain ⟨rfl, rfl, rfl⟩ := h
    refine ⟨s, out, [], fun _ => PList.new "" 0, fun _ => PList.new "" 0,
      fun _ => .newPhotonE (lit 0) ⟨lit 0, lit 0, lit 0⟩ ⟨lit 0, lit 0, lit 0⟩ (lit 0) (lit 0) false (lit 0),
      rfl, rfl, by simp, fun i _ _ => by omega, rfl, rfl⟩
  | succ k ih =>
    intro j s r r' hs hs' ev out hf hc hj hsz h
    obtain ⟨l, s1, r1, e, hs1, ev1, h1, h2, h3, h4, rfl⟩ := simEvents_succ h
    obtain ⟨p, hl, rfl, hlen⟩ := event_lists hf (by omega) h1 h2
    have hl0 : l.items[0]? = some p := by rw [hl]; rfl
    have e1 := storePrimary_eq hsz l j (by omega) hl0
    have hsz1 : ({ out with primary := out.primary.set j (some (full [particleRow j p])) } : OutMgr D).Sized n :=
      ⟨by simpa using hsz.prim, hsz.ec, hsz.pc, hsz.gc, hsz.e, hsz.p, hsz.g⟩
    have e2 := storeFinal_eq hsz1 e.list j (by omega) hlen
    set m1 : OutMgr D := { out with primary := out.primary.set j (some (full [particleRow j p])) } with hm1
    have hsz2 : (m1.withFinal e.list.items j).Sized n :=
      ⟨hsz1.prim, by simpa [withFinal] using hsz1.ec, by simpa [withFinal] using hsz1.pc,
        by simpa [withFinal] using hsz1.gc, by simpa [withFinal] using hsz1.e,
        by simpa [withFinal] using hsz1.p, by simpa [withFinal] using hsz1.g⟩
    have hsz3 : (storeTrackIf tracking (m1.withFinal e.list.items j) e.list j).Sized n := by
      unfold storeTrackIf
      split
      · exact ⟨hsz2.prim, hsz2.ec, hsz2.pc, hsz2.gc, hsz2.e, hsz2.p, hsz2.g⟩
      · exact hsz2
    obtain ⟨s', out', cs, start, fin, first, g1, g2, g3, g4, g5, g6⟩ :=
      ih (j + 1) (storeTrackIf tracking (m1.withFinal e.list.items j) e.list j) (full_succ hf)
        (by dsimp only; omega) (by omega) hsz3 h4
    refine ⟨s', out', .storePrimary l j :: .storeFinal e.list j ::
      ((if tracking = true then [.storeTrack e.list j] else []) ++ cs),
      Function.update start j l, Function.update fin j e.list, Function.update first j p, ?_, ?_, ?_, ?_,
      ?_, ?_⟩
    · unfold runEvents runEvent
      rw [h1, Timed.ok_bind]
      dsimp only
      rw [storePrimaryIf, if_pos rfl, e1, Timed.ok_bind, h2]
      rw [← g1]
      change ((Timed.lift (fillRest e.list e.histCount e.hists) >>= _) >>= _) = _
      rw [h3]
      change ((Timed.lift (storeFinalIf true m1 e.list j) >>= _) >>= _) = _
      rw [storeFinalIf, if_pos rfl, e2]
      rfl
    · simp only [calls, call]
      rw [e1, Res.ok_bind, e2, Res.ok_bind]
      cases tracking with
      | false => exact g2
      | true =>
        rw [if_pos rfl, List.singleton_append]
        simp only [calls, call]
        exact g2
    · intro c hc'
      rcases List.mem_cons.1 hc' with rfl | hc'
      · exact ⟨j, le_rfl, by omega, .inl (by rw [Function.update_self])⟩
      rcases List.mem_cons.1 hc' with rfl | hc'
      · exact ⟨j, le_rfl, by omega, .inr (.inl (by rw [Function.update_self]))⟩
      rcases List.mem_append.1 hc' with hc' | hc'
      · refine ⟨j, le_rfl, by omega, .inr (.inr ⟨e.list, ?_⟩)⟩
        split at hc'
        · simpa using hc'
        · simp at hc'
      · obtain ⟨i, hi1, hi2, hi⟩ := g3 c hc'
        refine ⟨i, by omega, hi2, ?_⟩
        rw [Function.update_of_ne (by omega), Function.update_of_ne (by omega)]
        exact hi
    · intro i hi1 hi2
      rcases Nat.eq_or_lt_of_le hi1 with rfl | hi1
      · simp only [Function.update_self]
        exact ⟨hl0, by simp, by simp, hlen⟩
      · rw [Function.update_of_ne (by omega), Function.update_of_ne (by omega),
          Function.update_of_ne (by omega)]
        obtain ⟨a, b, c, d⟩ := g4 i (by omega) hi2
        exact ⟨a, by simp [b], by simp [c], d⟩
    · rw [List.range_succ_eq_map, List.map_cons, List.map_map, Nat.add_zero, Function.update_self, g5, hl]
      refine congrArg (p :: ·) (List.map_congr_left fun i _ => ?_)
      simp only [Function.comp_def]
      rw [Function.update_of_ne (by omega)]
      congr 1; omega
    · rw [List.range_succ_eq_map, List.map_cons, List.map_map, Nat.add_zero, Function.update_self, g6]
      refine congrArg (e.list.items :: ·) (List.map_congr_left fun i _ => ?_)
      simp only [Function.comp_def]
      rw [Function.update_of_ne (by omega)]
      congr 2; omega

/-! ## The sources of a rank -/

open Mpi in
/-- What a rank has to send or write after it has simulated its events. -/
theorem localSources_sim {cfg : SimCfg D} {fuel : Nat} (tracking : Bool) :
    ∀ (ss : List (Source D × Bool)), (∀ s ∈ ss, s.1.Full ∧ s.1.partCount = 0) →
    ∀ {r : Rng D} {hs hs' : List (Hist D)} {evs : List (RankEvents D)} (out : OutMgr D),
    simSources cfg fuel (ss.map (·.1)) r hs = (some (.ok (evs, hs')) : Timed _) →
    ∃ sent w', localSources cfg fuel tracking ss ⟨r, hs, out⟩ = (some (.ok (sent, w')) : Timed _) ∧
      w'.hists = hs' ∧ sent.map (·.1) = ss.map (·.2) ∧ List.Forall₂ Frame hs hs' ∧
      List.Forall₂ (fun x ev => x.1 = true → Stored x.2 ev) sent evs ∧
      List.Forall₂ (fun (s : Source D × Bool) (ev : RankEvents D) => ev.firsts.length = s.1.nPart ∧
        ev.finals.length = s.1.nPart) ss evs := by
  intro ss
  induction ss with
  | nil =>
    intro _ r hs hs' evs out h
    have h := Res.ok.inj (Option.some.inj h)
    simp only [Prod.mk.injEq] at h
    obtain ⟨rfl, rfl⟩ := h
    exact ⟨[], ⟨r, hs, out⟩, rfl, rfl, rfl, frames_refl _, .nil, .nil⟩
  | cons s ss ih =>
    intro hss r hs hs' evs out h
    rw [List.map_cons] at h
    unfold simSources at h
    obtain ⟨⟨ev, r1, hs1⟩, h1, h⟩ := Timed.bind_ok h
    obtain ⟨⟨evs1, hs2⟩, h2, h⟩ := Timed.bind_ok h
    have h := Res.ok.inj (Option.some.inj h)
    simp only [Prod.mk.injEq] at h
    obtain ⟨rfl, rfl⟩ := h
    obtain ⟨hf, hc⟩ := hss s List.mem_cons_self
    have hlen := simEvents_lengths hf (by omega) h1
    have hfr := simEvents_frames h1
    have hrest := fun s' h => hss s' (List.mem_cons_of_mem _ h)
    cases ho : s.2 with
    | false =>
      obtain ⟨s', out', he⟩ := runEvents_plain tracking 0 (initSourceIf false out s.1.nPart) h1
      obtain ⟨sent, w', g1, g2, g3, g4, g5, g6⟩ := ih hrest out' h2
      refine ⟨(false, out') :: sent, w', ?_, g2, ?_, frames_trans hfr g4, .cons (fun h => by cases h) g5,
        .cons hlen g6⟩
      · unfold localSources
        rw [ho, he]
        change (localSources cfg fuel tracking ss ⟨r1, hs1, out'⟩ >>= _) = _
        rw [g1]
        rfl
      · rw [List.map_cons, List.map_cons, g3, ho]
    | true =>
      obtain ⟨s', out', cs, start, fin, first, he, e1, e2, e3, e4, e5⟩ := runEvents_stores (n := s.1.nPart)
        tracking 0 (initSourceIf true out s.1.nPart) hf (by omega) (by omega)
        (by rw [initSourceIf, if_pos rfl]; exact initSource_sized _ _) h1
      obtain ⟨sent, w', g1, g2, g3, g4, g5, g6⟩ := ih hrest out' h2
      refine ⟨(true, out') :: sent, w', ?_, g2, ?_, frames_trans hfr g4, .cons (fun _ => ?_) g5,
        .cons hlen g6⟩
      · unfold localSources
        rw [ho, he]
        change (localSources cfg fuel tracking ss ⟨r1, hs1, out'⟩ >>= _) = _
        rw [g1]
        rfl
      · rw [List.map_cons, List.map_cons, g3, ho]
      · rw [initSourceIf, if_pos rfl] at e1
        simp only [Nat.zero_add] at e4 e5
        exact ⟨out, s.1.nPart, start, fin, first, cs, fun j hj => (e3 j (Nat.zero_le _) hj).1,
          fun c hc => by obtain ⟨i, -, hi, h⟩ := e2 c hc; exact ⟨i, hi, h⟩,
          fun j hj => (e3 j (Nat.zero_le _) hj).2.1, fun j hj => (e3 j (Nat.zero_le _) hj).2.2.1,
          fun j hj => (e3 j (Nat.zero_le _) hj).2.2.2, e1, e4, e5⟩

/-- The histograms of all ranks have the same shape at the start. -/
theorem makeHists_frames (garbage garbage' : Nat → Nat) (hs : List (HistogramParams D)) (i : Nat) :
    List.Forall₂ Frame (makeHists garbage i hs) (makeHists garbage' i hs) := by
  induction hs generalizing i with
  | nil => exact .nil
  | cons h hs ih => exact .cons ⟨rfl, rfl, rfl, rfl, rfl, rfl⟩ (ih (i + 1))

end QED
