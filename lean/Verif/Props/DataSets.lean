import Verif.Props.Output
import Verif.Props.Grid

set_option autoImplicit false
set_option linter.unusedSectionVars false

/-!
# Property C92: data sets hold the recorded numbers

By C54 and C80 the groups of the output file are never made, so that writing fails. The theorems here are
about the code that follows `AddGroup`, for a file that has the group.
-/

namespace QED

open Dbl OutMgr

/-! ## Specification -/

section generic

variable {D : Type} [Dbl D]

/-- The group is there and the names in it are free. -/
def H5.Ready (f : H5 D) (path : Path) (names : List String) : Prop :=
  f.hasGroup path = true ∧ ∀ n ∈ names, f.exists_ (path ++ [n]) = false

/-- The file with data sets added to a group. -/
def H5.plus (f : H5 D) (path : Path) (sets : List (String × DataSet D)) : H5 D :=
  { f with sets := f.sets ++ sets.map fun s => (path ++ [s.1], s.2) }

/-- A table of vectors: one row each, in units of `s`. -/
def vectorTable (vs : List (V3 D)) (s : D) : DataSet D :=
  ⟨[vs.length, 3], vs.flatMap fun v => [v.x *. s, v.y *. s, v.z *. s]⟩

/-- A list of numbers in units of `s`. -/
def numberTable (xs : List D) (s : D) : DataSet D := ⟨[xs.length], xs.map fun x => x *. s⟩

/-- A list of numbers as they are. -/
def plainTable (xs : List D) : DataSet D := ⟨[xs.length], xs⟩

/-- A quantity on the points of a grid, the last axis running fastest. -/
structure IsGrid (g : V3 D → D) (xs ys zs : List D) (d : DataSet D) : Prop where
  dims : d.dims = [xs.length, ys.length, zs.length]
  length : d.data.length = xs.length * ys.length * zs.length
  value : ∀ i j k (hi : i < xs.length) (hj : j < ys.length) (hk : k < zs.length),
    d.data[(i * ys.length + j) * zs.length + k]? = some (g ⟨xs[i], ys[j], zs[k]⟩)

/-- The tracks that a call records. -/
def tracksOf : Call D → List (Track D)
  | .storeTrack l j => l.items.map fun p => ⟨j, p.posHistory, p.momHistory, p.timeHistory, p.gammaHistory⟩
  | _ => []

/-! ## Proofs -/

theorem H5.Ready.put {f : H5 D} {path : Path} {n : String} {ns : List String} (h : f.Ready path (n :: ns))
    (hn : n ∉ ns) (dims : List Nat) (data : List D) :
    f.createDataSet (path ++ [n]) dims (data.map some) data.length = .ok (f.plus path [(n, ⟨dims, data⟩)]) ∧
    (f.plus path [(n, ⟨dims, data⟩)]).Ready path ns := by
  constructor
  · unfold H5.createDataSet
    rw [if_pos ⟨h.2 n (by simp), by simpa using h.1⟩, Buf.readRow_full _ _ _ (by omega), Res.ok_bind]
    simp [H5.plus]
  · refine ⟨h.1, fun m hm => ?_⟩
    unfold H5.plus
    rw [List.map_cons, List.map_nil, H5.exists_append _ _ _ _ (by
      intro he
      have := List.append_cancel_left he
      simp only [List.cons.injEq, and_true] at this
      exact hn (this ▸ hm))]
    exact h.2 m (by simp [hm])

theorem H5.plus_plus (f : H5 D) (path : Path) (a b : List (String × DataSet D)) :
    (f.plus path a).plus path b = f.plus path (a ++ b) := by
  simp [H5.plus]

theorem vecCells_eq (vs : List (V3 D)) (s : D) :
    vecCells vs s = (vectorTable vs s).data.map some ∧ (vectorTable vs s).data.length = vs.length * 3 := by
  induction vs with
  | nil => exact ⟨rfl, rfl⟩
  | cons v vs ih =>
    unfold vecCells vectorTable at ih ⊢
    simp only [List.flatMap_cons, List.map_append, List.length_append, List.length_cons] at ih ⊢
    rw [ih.1, ih.2]
    exact ⟨rfl, by simp; omega⟩

theorem put_vectors {f : H5 D} {path : Path} {n : String} {ns : List String} (h : f.Ready path (n :: ns))
    (hn : n ∉ ns) (vs : List (V3 D)) (s : D) :
    f.addArray2D (vecCells vs s) vs.length 3 (path ++ [n]) = .ok (f.plus path [(n, vectorTable vs s)]) ∧
    (f.plus path [(n, vectorTable vs s)]).Ready path ns := by
  have := h.put hn [vs.length, 3] (vectorTable vs s).data
  refine ⟨?_, this.2⟩
  unfold H5.addArray2D
  rw [(vecCells_eq vs s).1, ← (vecCells_eq vs s).2]
  exact this.1

theorem put_numbers {f : H5 D} {path : Path} {n : String} {ns : List String} (h : f.Ready path (n :: ns))
    (hn : n ∉ ns) (xs : List D) (s : D) :
    f.addArray1D (xs.map fun x => some (x *. s)) xs.length (path ++ [n]) =
      .ok (f.plus path [(n, numberTable xs s)]) ∧
    (f.plus path [(n, numberTable xs s)]).Ready path ns := by
  have := h.put hn [xs.length] (numberTable xs s).data
  refine ⟨?_, this.2⟩
  unfold H5.addArray1D
  have h1 : (xs.map fun x => some (x *. s)) = (numberTable xs s).data.map some := by
    simp [numberTable]
  have h2 : (numberTable xs s).data.length = xs.length := by simp [numberTable]
  rw [h1, ← h2]
  rw [h2] at this ⊢
  exact this.1

theorem put_plain {f : H5 D} {path : Path} {n : String} {ns : List String} (h : f.Ready path (n :: ns))
    (hn : n ∉ ns) (xs : List D) :
    f.addArray1D (xs.map some) xs.length (path ++ [n]) = .ok (f.plus path [(n, plainTable xs)]) ∧
    (f.plus path [(n, plainTable xs)]).Ready path ns :=
  h.put hn [xs.length] xs

/-- C92 for tracks: positions, momenta and times in the output units. The Lorentz factors, which have no
unit, are multiplied by the time unit (see `C92_gamma_refuted`). -/
theorem C92_track_partial (u : OutUnits D) (f : H5 D) (path : Path) (t : Track D)
    (h : f.Ready path ["Position", "Momentum", "Time", "Gamma"]) :
    trackSets u f path t = .ok (f.plus path [("Position", vectorTable t.pos u.length),
      ("Momentum", vectorTable t.mom u.momentum), ("Time", numberTable t.time u.time),
      ("Gamma", numberTable t.gamma u.time)]) := by
  obtain ⟨a1, b1⟩ := put_vectors h (by decide) t.pos u.length
  obtain ⟨a2, b2⟩ := put_vectors b1 (by decide) t.mom u.momentum
  obtain ⟨a3, b3⟩ := put_numbers b2 (by decide) t.time u.time
  obtain ⟨a4, -⟩ := put_numbers b3 (by decide) t.gamma u.time
  unfold trackSets
  rw [a1, Res.ok_bind, a2, Res.ok_bind, a3, Res.ok_bind, a4]
  simp only [H5.plus_plus]
  rfl

/-- C92 for single particles and particle lists. -/
theorem C92_history (u : OutUnits D) (f : H5 D) (path : Path) (p : Particle D)
    (h : f.Ready path ["Position", "Momentum", "Time", "Gamma"]) :
    historySets u f p path = .ok (f.plus path [("Position", vectorTable p.posHistory u.length),
      ("Momentum", vectorTable p.momHistory u.momentum), ("Time", numberTable p.timeHistory u.time),
      ("Gamma", plainTable p.gammaHistory)]) := by
  obtain ⟨a1, b1⟩ := put_vectors h (by decide) p.posHistory u.length
  obtain ⟨a2, b2⟩ := put_vectors b1 (by decide) p.momHistory u.momentum
  obtain ⟨a3, b3⟩ := put_numbers b2 (by decide) p.timeHistory u.time
  obtain ⟨a4, -⟩ := put_plain b3 (by decide) p.gammaHistory
  unfold historySets
  rw [a1, Res.ok_bind, a2, Res.ok_bind, a3, Res.ok_bind, a4]
  simp only [H5.plus_plus]
  rfl

/-- C92 for histograms with as many centres and values as bins. -/
theorem C92_histogram (f : H5 D) (path : Path) (h : Hist D) (hf : f.Ready path ["BinCentres", "BinValues"])
    (hc : h.centres.length = h.nBins) (hv : h.values.length = h.nBins) :
    histSets f path h = .ok (f.plus path [("BinCentres", plainTable h.centres),
      ("BinValues", plainTable h.values)]) := by
  obtain ⟨a1, b1⟩ := put_plain hf (by decide) h.centres
  obtain ⟨a2, -⟩ := put_plain b1 (by decide) h.values
  unfold histSets
  rw [← hc, a1, Res.ok_bind, hc, ← hv, a2]
  simp only [H5.plus_plus]
  rfl

theorem put_grid {f : H5 D} {path : Path} {n : String} {ns : List String} (h : f.Ready path (n :: ns))
    (hn : n ∉ ns) (field : Field D) (t : D) (xs ys zs : List D) (g : V3 D × V3 D → D)
    (hb : xs.length * ys.length * zs.length ≤ 2 ^ 32) :
    ∃ d, outComponent f field t xs ys zs g (path ++ [n]) = .ok (f.plus path [(n, d)]) ∧
      (f.plus path [(n, d)]).Ready path ns ∧ IsGrid (fun x => g (field t x)) xs ys zs d := by
  obtain ⟨b, b1, b2, b3, b4⟩ := C58_buffer_partial
    (fun i j k => g (fieldAt field t xs ys zs i j k)) hb
  have hd : ∃ data : List D, b = data.map some := by
    clear b1 b3
    rw [← b2] at b4
    clear b2
    induction b with
    | nil => exact ⟨[], rfl⟩
    | cons o b ih =>
      obtain ⟨v, hv⟩ := b4 0 (by simp)
      obtain ⟨data, rfl⟩ := ih fun q hq => by
        obtain ⟨w, hw⟩ := b4 (q + 1) (by simpa using hq)
        exact ⟨w, by simpa using hw⟩
      exact ⟨v :: data, by simp at hv; simp [hv]⟩
  obtain ⟨data, rfl⟩ := hd
  have := h.put hn [xs.length, ys.length, zs.length] data
  refine ⟨⟨[xs.length, ys.length, zs.length], data⟩, ?_, this.2, rfl, by simpa using b2, ?_⟩
  · unfold outComponent outGrid H5.addArray3D
    rw [b1, Res.ok_bind, ← b2, List.length_map]
    exact this.1
  · intro i j k hi hj hk
    have h3 := b3 i j k hi hj hk
    rw [List.getElem?_map] at h3
    obtain ⟨v, hv, hv'⟩ := Option.map_eq_some_iff.mp h3
    dsimp only
    rw [hv, hv']
    simp [fieldAt, hi, hj, hk]

/-- C92 for fields on grids of up to `2 ^ 32` points (for more see `C58_refuted`): `E0`, `E1`, `E2` hold the
components of the electric field and `B0`, `B1`, `B2` those of the magnetic field at the grid points. -/
theorem C92_field_partial (f : H5 D) (field : Field D) (path : Path) (t : D) (xs ys zs : List D)
    (h : f.Ready path ["E0", "B0", "E1", "B1", "E2", "B2"])
    (hb : xs.length * ys.length * zs.length ≤ 2 ^ 32) :
    ∃ ex bx ey b_y ez bz, fieldSets f field path t xs ys zs = .ok (f.plus path
      [("E0", ex), ("B0", bx), ("E1", ey), ("B1", b_y), ("E2", ez), ("B2", bz)]) ∧
      IsGrid (fun x => (field t x).1.x) xs ys zs ex ∧ IsGrid (fun x => (field t x).2.x) xs ys zs bx ∧
      IsGrid (fun x => (field t x).1.y) xs ys zs ey ∧ IsGrid (fun x => (field t x).2.y) xs ys zs b_y ∧
      IsGrid (fun x => (field t x).1.z) xs ys zs ez ∧ IsGrid (fun x => (field t x).2.z) xs ys zs bz := by
  obtain ⟨d1, a1, b1, c1⟩ := put_grid h (by decide) field t xs ys zs (·.1.x) hb
  obtain ⟨d2, a2, b2, c2⟩ := put_grid b1 (by decide) field t xs ys zs (·.2.x) hb
  obtain ⟨d3, a3, b3, c3⟩ := put_grid b2 (by decide) field t xs ys zs (·.1.y) hb
  obtain ⟨d4, a4, b4, c4⟩ := put_grid b3 (by decide) field t xs ys zs (·.2.y) hb
  obtain ⟨d5, a5, b5, c5⟩ := put_grid b4 (by decide) field t xs ys zs (·.1.z) hb
  obtain ⟨d6, a6, -, c6⟩ := put_grid b5 (by decide) field t xs ys zs (·.2.z) hb
  refine ⟨d1, d2, d3, d4, d5, d6, ?_, c1, c2, c3, c4, c5, c6⟩
  unfold fieldSets
  rw [a1, Res.ok_bind, a2, Res.ok_bind, a3, Res.ok_bind, a4, Res.ok_bind, a5, Res.ok_bind, a6]
  simp only [H5.plus_plus]
  rfl

/-- The rows of `ListProperties` from number `i` on. -/
def propertyRows (i : Nat) (ps : List (Particle D)) : List (List D) :=
  (ps.zipIdx i).map fun e => [lit e.2, e.1.energy, e.1.position.x, e.1.position.y, e.1.position.z]

/-- C92 for the properties of a list: one row per particle, in order. -/
theorem C92_properties (f : H5 D) (path : Path) (l : PList D) (name : String) (h : f.Ready path [name]) :
    f.addArray2D (propertyCells 0 l.items) l.nPart 5 (path ++ [name]) =
      .ok (f.plus path [(name, ⟨[l.items.length, 5], (propertyRows 0 l.items).flatten⟩)]) := by
  have key : ∀ (ps : List (Particle D)) (i : Nat),
      propertyCells i ps = (propertyRows i ps).flatten.map some ∧
      (propertyRows i ps).flatten.length = ps.length * 5 := by
    intro ps
    induction ps with
    | nil => exact fun _ => ⟨rfl, rfl⟩
    | cons p ps ih =>
      intro i
      obtain ⟨h1, h2⟩ := ih (i + 1)
      unfold propertyRows at h1 h2 ⊢
      simp only [propertyCells, List.zipIdx_cons, List.map_cons, List.flatten_cons, List.length_append,
        List.map_append, List.length_cons]
      rw [h1, h2]
      exact ⟨rfl, by simp; omega⟩
  have := (h.put (by simp) [l.items.length, 5] (propertyRows 0 l.items).flatten).1
  unfold H5.addArray2D PList.nPart
  rw [(key l.items 0).1, ← (key l.items 0).2]
  exact this

/-- C92 for what is recorded: after any calls, the tracks are those of all calls that record tracks, in the
order of the calls. -/
theorem C92_tracks_kept (m m' : OutMgr D) (cs : List (Call D)) (h : m.calls cs = .ok m') :
    m'.tracks = m.tracks ++ cs.flatMap tracksOf := by
  induction cs generalizing m with
  | nil => obtain rfl := Res.ok.inj h; simp
  | cons c cs ih =>
    unfold calls at h
    obtain ⟨m1, h1, h2⟩ := Res.bind_eq_ok.mp h
    rw [ih m1 h2, List.flatMap_cons, ← List.append_assoc]
    congr 1
    clear h h2 ih
    have src : Res.Post m.outputSource (fun a => a.tracks = m.tracks) :=
      .any fun _ => .any fun _ => .any fun _ => .any fun _ => .any fun _ => .any fun _ => .any fun _ =>
        .any fun _ => .any fun _ => .ok rfl
    have : Res.Post (m.call c) fun a => a.tracks = m.tracks ++ tracksOf c := by
      cases c with
      | initSource n => exact .ok (by simp [initSource, tracksOf])
      | storePrimary l j =>
        exact .any fun _ => .any fun _ => .any fun _ => .ok (by simp [tracksOf])
      | storeFinal l j =>
        exact .any fun _ => .any fun _ => .any fun _ => .any fun _ => .any fun _ => .any fun _ =>
          .any fun _ => .ok (by simp [tracksOf])
      | storeTrack l j => exact .ok rfl
      | outputEvents s t =>
        refine .bind (P := fun a : OutMgr D => a.tracks = m.tracks) ?_ fun a ha => ?_
        · cases s
          · exact .ok rfl
          · exact src
        · cases t
          · exact .ok (by simp [tracksOf, ha])
          · exact .any fun _ => .any fun _ => .ok (by simp [tracksOf, ha])
      | outputHist hist => exact .any fun _ => .any fun _ => .ok (by simp [tracksOf])
      | outEMField field ts xs ys zs => exact .any fun _ => .ok (by simp [tracksOf])
      | singleParticle p name =>
        refine .any fun _ => ?_
        split
        · exact .fail fun a => by simp
        · exact .any fun _ => .ok (by simp [tracksOf])
      | listTracks l name => exact .any fun _ => .any fun _ => .any fun _ => .ok (by simp [tracksOf])
      | listProperties l name => exact .any fun _ => .any fun _ => .any fun _ => .ok (by simp [tracksOf])
    exact this m1 h1

end generic

/-- C92 is false of the Lorentz factors of tracks: with any time unit other than one, a track with a
Lorentz factor other than zero is not written as it was recorded. -/
theorem C92_gamma_refuted (t : Track ℝ) (s : ℝ) (hs : s ≠ 1) (ht : ∃ g ∈ t.gamma, g ≠ 0) :
    numberTable t.gamma s ≠ plainTable t.gamma := by
  obtain ⟨g, hg, h0⟩ := ht
  intro h
  have hd : (t.gamma.map fun x => x * s) = t.gamma := by
    simpa [numberTable, plainTable] using h
  obtain ⟨i, hi, rfl⟩ := List.mem_iff_getElem.mp hg
  have : t.gamma[i] * s = t.gamma[i] := by
    have h1 := congrArg (·[i]?) hd
    simpa [hi] using h1
  exact hs (mul_left_cancel₀ h0 (by linarith))

/-- A file with a group for a track, and one recorded point. -/
example : ∃ (f : H5 ℝ) (t : Track ℝ), f.Ready ["Particles"] ["Position", "Momentum", "Time", "Gamma"] ∧
    f.Ready ["Particles"] ["E0", "B0", "E1", "B1", "E2", "B2"] ∧ t.pos ≠ [] ∧ (2 : ℝ) ≠ 1 ∧
    ∃ g ∈ t.gamma, g ≠ 0 := by
  refine ⟨⟨[["Particles"]], []⟩, ⟨0, [⟨1, 2, 3⟩], [⟨1, 2, 3⟩], [0], [5]⟩, ?_, ?_, by simp, by norm_num, 5,
    by simp, by norm_num⟩ <;>
  · refine ⟨by simp [H5.hasGroup], fun n hn => ?_⟩
    simp [H5.exists_, H5.hasGroup, H5.hasSet]

/-- Two calls that record tracks. -/
example (u : Option (OutUnits ℝ)) (p : Particle ℝ) : ∃ m m' : OutMgr ℝ,
    m.calls [.storeTrack ⟨"0", 10, [p]⟩ 0, .storeTrack ⟨"1", 10, [p, p]⟩ 1] = .ok m' ∧
    m'.tracks.length = 3 := by
  obtain ⟨m, hm, -⟩ := new_file u
  have ht : m.tracks = [] := by
    unfold OutMgr.new at hm
    simp only [Res.bind_eq_ok] at hm
    obtain ⟨_, -, _, -, _, -, h⟩ := hm
    rw [← Res.ok.inj h]
  exact ⟨m, _, rfl, by simp [storeTrack, ht]⟩

end QED
