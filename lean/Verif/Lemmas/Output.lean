import Verif.Model.Output
import Verif.Spec.Output
import Verif.Lemmas.FileParser
import Mathlib.Tactic.Ring

set_option autoImplicit false
set_option linter.unusedSectionVars false

/-!
# Buffers and tables
-/

namespace QED

open Dbl OutMgr OutSpec

variable {D : Type} [Dbl D]

namespace Buf

theorem writeRow_append (vs : List D) (a : Buf D) (r : Nat) :
    (a ++ List.replicate (vs.length + r) none : Buf D).writeRow a.length vs =
      .ok (a ++ vs.map some ++ List.replicate r none) := by
  induction vs generalizing a with
  | nil => simp [writeRow]
  | cons v vs ih =>
    have h1 : (a ++ List.replicate ((v :: vs).length + r) none : Buf D).write a.length v =
        .ok ((a ++ [some v]) ++ List.replicate (vs.length + r) none) := by
      have hl : (v :: vs).length + r = (vs.length + r) + 1 := by simp; omega
      rw [hl, List.replicate_succ]
      simp [write]
    have h2 := ih (a ++ [some v])
    simp only [List.length_append, List.length_cons, List.length_nil, Nat.zero_add] at h2
    simp only [writeRow, h1, Res.ok_bind, h2]
    simp

theorem writeRow_over (b : Buf D) (v : D) (vs : List D) (i : Nat) (h : b.length ≤ i) :
    b.writeRow i (v :: vs) = .ub "out-of-bounds write" := by
  simp [writeRow, write, Nat.not_lt.2 h]

theorem readRow_full (n : Nat) (ds : List D) (i : Nat) (h : i + n ≤ ds.length) :
    readRow (ds.map some) i n = .ok ((ds.drop i).take n) := by
  induction n generalizing i with
  | zero => simp [readRow]
  | succ n ih =>
    have hi : i < ds.length := by omega
    have h1 : read (ds.map some) i = .ok ds[i] := by simp [read, hi]
    simp only [readRow, h1, Res.ok_bind, ih (i + 1) (by omega)]
    rw [List.drop_eq_getElem_cons hi, List.take_succ_cons]

end Buf

/-! ### Rows of eight -/

/-- All rows have eight entries. -/
def Eight (rows : List (List D)) : Prop := ∀ r ∈ rows, r.length = 8

theorem Eight.length {rows : List (List D)} (h : Eight rows) : rows.flatten.length = rows.length * 8 := by
  induction rows with
  | nil => rfl
  | cons r rows ih =>
    have h1 := h r (by simp)
    have h2 := ih fun x hx => h x (by simp [hx])
    simp only [List.flatten_cons, List.length_append, List.length_cons, h1, h2]
    omega

theorem Eight.slice {rows : List (List D)} (h : Eight rows) (j : Nat) (hj : j < rows.length) :
    (rows.flatten.drop (j * 8)).take 8 = rows[j] := by
  induction rows generalizing j with
  | nil => simp at hj
  | cons r rows ih =>
    have h1 := h r (by simp)
    cases j with
    | zero => simp [← h1]
    | succ j =>
      have h2 := ih (fun x hx => h x (by simp [hx])) j (by simpa using hj)
      have : (j + 1) * 8 = r.length + j * 8 := by omega
      rw [List.flatten_cons, this, List.drop_append, List.drop_eq_nil_of_le (by omega)]
      simpa using h2

theorem speciesRows_eight (k : Kind) (id : Nat) (l : List (Particle D)) :
    Eight (speciesRows k id l) := by
  intro r hr
  simp only [speciesRows, List.mem_map] at hr
  obtain ⟨p, _, rfl⟩ := hr
  rfl

/-- A full array. -/
def full (rows : List (List D)) : Buf D := rows.flatten.map some

theorem full_append (a b : List (List D)) : full (a ++ b) = full a ++ full b := by
  simp [full]

theorem full_length {rows : List (List D)} (h : Eight rows) :
    (full rows).length = rows.length * 8 := by
  rw [full, List.length_map, h.length]

theorem row_read {rows : List (List D)} (h : Eight rows) (j : Nat) (hj : j < rows.length) :
    (full rows).readRow (j * 8) 8 = .ok rows[j] := by
  rw [full, Buf.readRow_full _ _ _ (by rw [h.length]; omega), h.slice j hj]

theorem row_write {rows : List (List D)} (h : Eight rows) (v : List D) (hv : v.length = 8) (r : Nat) :
    (full rows ++ List.replicate ((r + 1) * 8) none : Buf D).writeRow (rows.length * 8) v =
      .ok (full (rows ++ [v]) ++ List.replicate (r * 8) none) := by
  have h1 := Buf.writeRow_append v (full rows) (r * 8)
  rw [full_length h, hv] at h1
  rw [show (r + 1) * 8 = 8 + r * 8 by omega, h1, full_append]
  simp [full]

theorem u32_lt {n : Nat} (h : n < 2 ^ 32) : u32 n = n := Nat.mod_eq_of_lt h

/-! ### Storing an event -/

theorem name_electron (p : Particle D) : p.name = "Electron" ↔ p.kind = .electron := by
  unfold Particle.name; cases p.kind <;> decide

theorem name_positron (p : Particle D) : p.name = "Positron" ↔ p.kind = .positron := by
  unfold Particle.name; cases p.kind <;> decide

theorem name_photon (p : Particle D) : p.name = "Photon" ↔ p.kind = .photon := by
  unfold Particle.name; cases p.kind <;> decide

/-- The name of a species. -/
def Kind.label : Kind → String
  | .electron => "Electron"
  | .positron => "Positron"
  | .photon => "Photon"

theorem name_label (p : Particle D) (k : Kind) : p.name = k.label ↔ p.kind = k := by
  cases k
  · exact name_photon p
  · exact name_electron p
  · exact name_positron p

theorem countName_eq (k : Kind) (id : Nat) (l : List (Particle D)) (n : Nat) (h : n + l.length < 2 ^ 32) :
    countName k.label l n = n + (speciesRows k id l).length := by
  induction l generalizing n with
  | nil => simp [countName, speciesRows]
  | cons p ps ih =>
    simp only [List.length_cons] at h
    simp only [countName, name_label]
    by_cases hk : p.kind = k
    · rw [if_pos hk, u32_lt (by omega), ih _ (by omega)]
      simp only [speciesRows, List.filter_cons, hk, decide_true, if_true, List.map_cons,
        List.length_cons]
      omega
    · rw [if_neg hk, ih _ (by omega)]
      simp [speciesRows, hk]

theorem row_eq (id : Nat) (p : Particle D) : row id p = particleRow id p := rfl

theorem fillAll_eq (id : Nat) (l : List (Particle D)) (E P G : List (List D))
    (hE : Eight E) (hP : Eight P) (hG : Eight G)
    (bE : E.length + l.length < 2 ^ 29) (bP : P.length + l.length < 2 ^ 29)
    (bG : G.length + l.length < 2 ^ 29) :
    fillAll id
      { electronData := full E ++ List.replicate ((speciesRows .electron id l).length * 8) none
        positronData := full P ++ List.replicate ((speciesRows .positron id l).length * 8) none
        photonData := full G ++ List.replicate ((speciesRows .photon id l).length * 8) none
        electrons := E.length, positrons := P.length, photons := G.length } l =
    .ok { electronData := full (E ++ speciesRows .electron id l)
          positronData := full (P ++ speciesRows .positron id l)
          photonData := full (G ++ speciesRows .photon id l)
          electrons := (E ++ speciesRows .electron id l).length
          positrons := (P ++ speciesRows .positron id l).length
          photons := (G ++ speciesRows .photon id l).length } := by
  induction l generalizing E P G with
  | nil => simp [fillAll, speciesRows]
  | cons p ps ih =>
    simp only [List.length_cons] at bE bP bG
    have hsnoc : ∀ {R : List (List D)}, Eight R → Eight (R ++ [particleRow id p]) := by
      intro R hR r hr
      rcases List.mem_append.1 hr with h | h
      · exact hR r h
      · rw [List.mem_singleton.1 h]; rfl
    simp only [fillAll, fillOne, name_electron, name_positron, name_photon, row_eq]
    cases hk : p.kind
    · -- photon
      have e1 : speciesRows .electron id (p :: ps) = speciesRows .electron id ps := by
        simp [speciesRows, hk]
      have e2 : speciesRows .positron id (p :: ps) = speciesRows .positron id ps := by
        simp [speciesRows, hk]
      have e3 : speciesRows .photon id (p :: ps) = particleRow id p :: speciesRows .photon id ps := by
        simp [speciesRows, hk]
      rw [e1, e2, e3]
      simp only [List.length_cons]
      rw [if_neg (by simp), if_neg (by simp), if_pos trivial, u32_lt (by omega), row_write hG _ rfl,
        Res.ok_bind, Res.ok_bind, u32_lt (by omega)]
      have := ih E P (G ++ [particleRow id p]) hE hP (hsnoc hG) (by omega) (by omega)
        (by simp; omega)
      simpa [List.append_assoc] using this
    · have e1 : speciesRows .electron id (p :: ps) =
          particleRow id p :: speciesRows .electron id ps := by
        simp [speciesRows, hk]
      have e2 : speciesRows .positron id (p :: ps) = speciesRows .positron id ps := by
        simp [speciesRows, hk]
      have e3 : speciesRows .photon id (p :: ps) = speciesRows .photon id ps := by
        simp [speciesRows, hk]
      rw [e1, e2, e3]
      simp only [List.length_cons]
      rw [if_pos trivial, u32_lt (by omega), row_write hE _ rfl, Res.ok_bind, Res.ok_bind,
        u32_lt (by omega)]
      have := ih (E ++ [particleRow id p]) P G (hsnoc hE) hP hG (by simp; omega) (by omega)
        (by omega)
      simpa [List.append_assoc] using this
    · have e1 : speciesRows .electron id (p :: ps) = speciesRows .electron id ps := by
        simp [speciesRows, hk]
      have e2 : speciesRows .positron id (p :: ps) =
          particleRow id p :: speciesRows .positron id ps := by
        simp [speciesRows, hk]
      have e3 : speciesRows .photon id (p :: ps) = speciesRows .photon id ps := by
        simp [speciesRows, hk]
      rw [e1, e2, e3]
      simp only [List.length_cons]
      rw [if_neg (by simp), if_pos trivial, u32_lt (by omega), row_write hP _ rfl, Res.ok_bind,
        Res.ok_bind, u32_lt (by omega)]
      have := ih E (P ++ [particleRow id p]) G hE (hsnoc hP) hG (by omega) (by simp; omega)
        (by omega)
      simpa [List.append_assoc] using this

/-- The manager after the final state of event `id` has been stored. -/
def OutMgr.withFinal (m : OutMgr D) (l : List (Particle D)) (id : Nat) : OutMgr D :=
  { m with
    electronCount := m.electronCount.set id (speciesRows .electron id l).length
    positronCount := m.positronCount.set id (speciesRows .positron id l).length
    photonCount := m.photonCount.set id (speciesRows .photon id l).length
    electron := m.electron.set id (some (full (speciesRows .electron id l)))
    positron := m.positron.set id (some (full (speciesRows .positron id l)))
    photon := m.photon.set id (some (full (speciesRows .photon id l))) }

/-- The six vectors of the final states have length `n`. -/
structure OutMgr.Sized (m : OutMgr D) (n : Nat) : Prop where
  prim : m.primary.length = n
  ec : m.electronCount.length = n
  pc : m.positronCount.length = n
  gc : m.photonCount.length = n
  e : m.electron.length = n
  p : m.positron.length = n
  g : m.photon.length = n

theorem speciesRows_le (k : Kind) (id : Nat) (l : List (Particle D)) :
    (speciesRows k id l).length ≤ l.length := by
  simp only [speciesRows, List.length_map]; exact List.length_filter_le _ _

theorem storeFinal_eq {m : OutMgr D} {n : Nat} (hm : m.Sized n) (l : PList D) (id : Nat) (hid : id < n)
    (hl : l.items.length < 2 ^ 29) : m.storeFinal l id = .ok (m.withFinal l.items id) := by
  have c1 := countName_eq .electron id l.items 0 (by omega)
  have c2 := countName_eq .positron id l.items 0 (by omega)
  have c3 := countName_eq .photon id l.items 0 (by omega)
  simp only [Kind.label, Nat.zero_add] at c1 c2 c3
  have b1 := speciesRows_le .electron id l.items
  have b2 := speciesRows_le .positron id l.items
  have b3 := speciesRows_le .photon id l.items
  have h := fillAll_eq id l.items [] [] [] (by simp [Eight]) (by simp [Eight]) (by simp [Eight])
    (by simpa using hl) (by simpa using hl) (by simpa using hl)
  simp only [full, List.flatten_nil, List.map_nil, List.nil_append, List.length_nil] at h
  unfold storeFinal
  rw [c1, c2, c3, u32_lt (by omega), u32_lt (by omega), u32_lt (by omega)]
  simp only [Buf.new]
  rw [h, Res.ok_bind]
  simp only [vset, hm.ec, hm.pc, hm.gc, hm.e, hm.p, hm.g, hid, if_true, Res.ok_bind]
  rfl

theorem storePrimary_eq {m : OutMgr D} {n : Nat} (hm : m.Sized n) (l : PList D) (id : Nat)
    (hid : id < n) {p : Particle D} (hp : l.items[0]? = some p) :
    m.storePrimary l id =
      .ok { m with primary := m.primary.set id (some (full [particleRow id p])) } := by
  have h := Buf.writeRow_append (particleRow id p) [] 0
  have h8 : (particleRow id p).length + 0 = 8 := rfl
  rw [h8] at h
  simp only [storePrimary, PList.get, hp, Res.ok_bind, row_eq, Buf.new]
  simp only [List.nil_append, List.length_nil] at h
  rw [h]
  simp [vset, hm.prim, hid, full]

theorem storePrimary_empty (m : OutMgr D) (l : PList D) (id : Nat) (hp : l.items = []) :
    ∃ w, m.storePrimary l id = .ub w := by
  simp only [storePrimary, PList.get, hp]
  by_cases h : 0 < l.maxParticles <;> simp [h]

/-! ### Gathering the events -/

theorem copyRows_eq {rows : List (List D)} (h : Eight rows) (hb : rows.length < 2 ^ 29) :
    ∀ (n j : Nat) (acc : List (List D)) (r : Nat), j + n = rows.length → Eight acc →
      acc.length + n < 2 ^ 29 →
      copyRows (some (full rows)) n j (full acc ++ List.replicate ((n + r) * 8) none) (acc.length * 8) =
        .ok (full (acc ++ rows.drop j) ++ List.replicate (r * 8) none, (acc ++ rows.drop j).length * 8) := by
  intro n
  induction n with
  | zero =>
    intro j acc r hj _ _
    have : rows.drop j = [] := List.drop_eq_nil_of_le (by omega)
    simp [copyRows, this]
  | succ n ih =>
    intro j acc r hj hacc hb2
    have hjl : j < rows.length := by omega
    simp only [copyRows, deref, Res.ok_bind]
    rw [u32_lt (by omega), row_read h j hjl, Res.ok_bind,
      show n + 1 + r = (n + r) + 1 by omega, row_write hacc _ (h _ (by simp)), Res.ok_bind]
    have h2 : Eight (acc ++ [rows[j]]) := by
      intro x hx
      rcases List.mem_append.1 hx with hx | hx
      · exact hacc x hx
      · rw [List.mem_singleton.1 hx]; exact h _ (by simp)
    have := ih (j + 1) (acc ++ [rows[j]]) r (by omega) h2 (by simp; omega)
    rw [u32_lt (by omega), show acc.length * 8 + 8 = (acc ++ [rows[j]]).length * 8 by simp; omega, this,
      List.drop_eq_getElem_cons hjl]
    simp

/-- Not enough room for the rows of an event. -/
theorem copyRows_over {rows : List (List D)} (h : Eight rows) (hb : rows.length < 2 ^ 29) :
    ∀ (n j : Nat) (acc : List (List D)) (r : Nat), j + n = rows.length → Eight acc →
      acc.length + r < 2 ^ 29 → r < n →
      copyRows (some (full rows)) n j (full acc ++ List.replicate (r * 8) none) (acc.length * 8) =
        .ub "out-of-bounds write" := by
  intro n
  induction n with
  | zero => intro j acc r _ _ _ hr; omega
  | succ n ih =>
    intro j acc r hj hacc hb2 hr
    have hjl : j < rows.length := by omega
    have h8 : rows[j].length = 8 := h _ (by simp)
    simp only [copyRows, deref, Res.ok_bind]
    rw [u32_lt (by omega), row_read h j hjl, Res.ok_bind]
    cases r with
    | zero =>
      obtain ⟨v, vs, hv⟩ := List.exists_cons_of_length_pos (l := rows[j]) (by omega)
      rw [hv, Buf.writeRow_over _ _ _ _ (by simp [full_length hacc]), Res.ub_bind]
    | succ r =>
      rw [row_write hacc _ h8, Res.ok_bind]
      have h2 : Eight (acc ++ [rows[j]]) := by
        intro x hx
        rcases List.mem_append.1 hx with hx | hx
        · exact hacc x hx
        · rw [List.mem_singleton.1 hx]; exact h8
      have := ih (j + 1) (acc ++ [rows[j]]) r (by omega) h2 (by simp; omega) (by omega)
      rw [u32_lt (by omega), show acc.length * 8 + 8 = (acc ++ [rows[j]]).length * 8 by simp; omega, this]

/-- Number of rows of all events. -/
def total (evs : List (List (List D))) : Nat := (evs.map List.length).sum

theorem copyEvents_eq (evs : List (List (List D))) (h : ∀ e ∈ evs, Eight e) (acc : List (List D))
    (hacc : Eight acc) (hb : acc.length + total evs < 2 ^ 29) :
    copyEvents (evs.map fun e => some (full e)) (evs.map List.length)
      (full acc ++ List.replicate (total evs * 8) none) (acc.length * 8) =
      .ok (full (acc ++ evs.flatten)) := by
  induction evs generalizing acc with
  | nil => simp [copyEvents, total]
  | cons e evs ih =>
    have ht : total (e :: evs) = e.length + total evs := by simp [total]
    rw [ht] at hb ⊢
    have he := h e (by simp)
    simp only [List.map_cons, copyEvents]
    rw [rd_ok (by simp), Res.ok_bind]
    simp only [List.getElem_cons_zero]
    rw [copyRows_eq he (by omega) e.length 0 acc (total evs) (by omega) hacc (by omega), Res.ok_bind]
    simp only [List.drop_zero, List.drop_succ_cons]
    have hacc' : Eight (acc ++ e) := fun x hx => (List.mem_append.1 hx).elim (hacc x) (he x)
    rw [ih (fun x hx => h x (by simp [hx])) (acc ++ e) hacc' (by simp; omega)]
    simp

theorem copyEvents_over (evs : List (List (List D))) (h : ∀ e ∈ evs, Eight e ∧ e.length < 2 ^ 29)
    (acc : List (List D)) (hacc : Eight acc) (r : Nat) (hb : acc.length + r < 2 ^ 29)
    (hr : r < total evs) :
    copyEvents (evs.map fun e => some (full e)) (evs.map List.length)
      (full acc ++ List.replicate (r * 8) none) (acc.length * 8) = .ub "out-of-bounds write" := by
  induction evs generalizing acc r with
  | nil => simp [total] at hr
  | cons e evs ih =>
    have ht : total (e :: evs) = e.length + total evs := by simp [total]
    rw [ht] at hr
    obtain ⟨he, hel⟩ := h e (by simp)
    simp only [List.map_cons, copyEvents]
    rw [rd_ok (by simp), Res.ok_bind]
    simp only [List.getElem_cons_zero]
    by_cases hre : r < e.length
    · rw [copyRows_over he hel e.length 0 acc r (by omega) hacc hb hre, Res.ub_bind]
    · obtain ⟨r', rfl⟩ : ∃ r', r = e.length + r' := ⟨r - e.length, by omega⟩
      rw [copyRows_eq he hel e.length 0 acc r' (by omega) hacc (by omega), Res.ok_bind]
      simp only [List.drop_zero, List.drop_succ_cons]
      have hacc' : Eight (acc ++ e) := fun x hx => (List.mem_append.1 hx).elim (hacc x) (he x)
      exact ih (fun x hx => h x (by simp [hx])) (acc ++ e) hacc' r' (by simp; omega) (by omega)

theorem foldl_u32 (cs : List Nat) (t : Nat) (h : t + cs.sum < 2 ^ 32) :
    cs.foldl (fun t c => u32 (t + c)) t = t + cs.sum := by
  induction cs generalizing t with
  | nil => simp
  | cons c cs ih =>
    simp only [List.sum_cons] at h
    rw [List.foldl_cons, u32_lt (by omega), ih _ (by omega), List.sum_cons]
    omega

theorem speciesTable_eq (evs : List (List (List D))) (h : ∀ e ∈ evs, Eight e)
    (hb : total evs < 2 ^ 29) :
    speciesTable (evs.map fun e => some (full e)) (evs.map List.length) =
      .ok (evs.flatten.length, full evs.flatten) := by
  have hs : (evs.map List.length).sum = total evs := rfl
  unfold speciesTable
  rw [foldl_u32 _ _ (by rw [hs]; omega), Nat.zero_add, hs]
  dsimp only
  rw [u32_lt (by omega)]
  have := copyEvents_eq evs h [] (by simp [Eight]) (by simpa using hb)
  simp only [full, List.flatten_nil, List.map_nil, List.nil_append, List.length_nil,
    Nat.zero_mul] at this
  simp only [Buf.new, full] at this ⊢
  rw [this, Res.ok_bind]
  simp [total]

theorem speciesTable_over (evs : List (List (List D))) (h : ∀ e ∈ evs, Eight e ∧ e.length < 2 ^ 29)
    (hb : 2 ^ 29 ≤ total evs) (hb2 : total evs < 2 ^ 32) :
    speciesTable (evs.map fun e => some (full e)) (evs.map List.length) =
      .ub "out-of-bounds write" := by
  have hs : (evs.map List.length).sum = total evs := rfl
  unfold speciesTable
  rw [foldl_u32 _ _ (by rw [hs]; omega), Nat.zero_add, hs]
  have hu : u32 (total evs * 8) = (total evs % 2 ^ 29) * 8 := by unfold u32; omega
  have := copyEvents_over evs h [] (by simp [Eight]) (total evs % 2 ^ 29)
    (by simp; omega) (by omega)
  simp only [full, List.flatten_nil, List.map_nil, List.nil_append, List.length_nil,
    Nat.zero_mul] at this
  dsimp only
  rw [hu]
  simp only [Buf.new, full] at this ⊢
  rw [this, Res.ub_bind]

theorem copyPrimary_eq (rows : List (List D)) (h : Eight rows) (acc : List (List D)) (hacc : Eight acc)
    (hb : acc.length + rows.length ≤ 2 ^ 29) :
    copyPrimary (rows.map fun r => some (full [r])) acc.length
      (full acc ++ List.replicate (rows.length * 8) none) = .ok (full (acc ++ rows)) := by
  induction rows generalizing acc with
  | nil => simp [copyPrimary]
  | cons r rows ih =>
    have hr : r.length = 8 := h r (by simp)
    have h1 : Eight [r] := by intro x hx; rw [List.mem_singleton.1 hx]; exact hr
    simp only [List.length_cons] at hb
    simp only [List.map_cons, copyPrimary, deref, Res.ok_bind, List.length_cons]
    have := row_read h1 0 (by simp)
    simp only [Nat.zero_mul, List.getElem_cons_zero] at this
    rw [this, Res.ok_bind, u32_lt (by omega), row_write hacc r hr, Res.ok_bind]
    have hacc' : Eight (acc ++ [r]) := fun x hx => (List.mem_append.1 hx).elim (hacc x) (h1 x)
    have := ih (fun x hx => h x (by simp [hx])) (acc ++ [r]) hacc' (by simp; omega)
    simp only [List.length_append, List.length_cons, List.length_nil, Nat.zero_add] at this
    rw [this]; simp

end QED
