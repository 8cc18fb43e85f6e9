import Verif.Model.Particle
import Verif.Model.Fields
import Verif.Model.Histogram

set_option autoImplicit false

/-!
# `Source/IO/Output/{HDF5Output,OutputManager}.cpp`

An HDF5 file is a set of groups and a set of data sets. Of the HDF5 library the following is assumed:
`H5Gget_objinfo` returns 0 if the object exists and a negative number otherwise; `createGroup` and
`createDataSet` throw if the name is taken or if the parent group does not exist.

Simplified: a path is the list of its components, so names are taken not to contain `/`; memory that
is never freed is not tracked. Sizes and counters of type `unsigned int` are taken modulo 2^32
wherever they are multiplied by the row length or added up.
-/

namespace QED

open Dbl

variable {D : Type} [Dbl D]

/-! ## Raw buffers -/

/-- An array from `new double[n]`: cells are `none` until they are written. -/
abbrev Buf (D : Type) := List (Option D)

namespace Buf

/-- `new double[n]`. -/
def new (n : Nat) : Buf D := List.replicate n none

/-- `b[i] = v`. -/
def write (b : Buf D) (i : Nat) (v : D) : Res (Buf D) :=
  if i < b.length then .ok (b.set i (some v)) else .ub "out-of-bounds write"

/-- The value of `b[i]`; a cell that was never written has none. -/
def read (b : Buf D) (i : Nat) : Res D :=
  match b[i]? with
  | some (some v) => .ok v
  | some none => .ub "uninitialised read"
  | none => .ub "out-of-bounds read"

/-- `b[i] = v0, b[i+1] = v1, ...`. -/
def writeRow (b : Buf D) (i : Nat) : List D → Res (Buf D)
  | [] => .ok b
  | v :: vs => do
    let b ← b.write i v
    writeRow b (i + 1) vs

/-- `b[i], ..., b[i+n-1]`. -/
def readRow (b : Buf D) (i : Nat) : Nat → Res (List D)
  | 0 => .ok []
  | n + 1 => do
    let v ← b.read i
    let vs ← readRow b (i + 1) n
    .ok (v :: vs)

end Buf

/-- Use of a pointer that may be null. -/
def deref {α : Type} (p : Option α) : Res α :=
  match p with
  | some a => .ok a
  | none => .ub "null pointer"

/-! ## The file -/

/-- A path in the file. -/
abbrev Path := List String

/-- A data set: its dimensions and its data in row-major order. -/
structure DataSet (D : Type) where
  dims : List Nat
  data : List D

/-- Contents of an HDF5 file. The root group is always there. -/
structure H5 (D : Type) where
  groups : List Path
  sets : List (Path × DataSet D)

namespace H5

/-- A fresh file, opened with `H5F_ACC_TRUNC` (`HDF5Output.cpp:18`). -/
def empty : H5 D := ⟨[], []⟩

/-- Is there a group of this name? -/
def hasGroup (f : H5 D) (p : Path) : Bool := p = [] || p ∈ f.groups

/-- Is there a data set of this name? -/
def hasSet (f : H5 D) (p : Path) : Bool := f.sets.any (·.1 = p)

/-- Is there anything of this name? -/
def exists_ (f : H5 D) (p : Path) : Bool := f.hasGroup p || f.hasSet p

/-- `H5File::createGroup` of the library. -/
def createGroup (f : H5 D) (p : Path) : Res (H5 D) :=
  if f.exists_ p = false ∧ f.hasGroup p.dropLast then .ok { f with groups := f.groups ++ [p] }
  else .throw "H5::FileIException"

/-- `H5File::createDataSet` of the library, followed by `write`, which reads `n` cells of the
buffer. -/
def createDataSet (f : H5 D) (p : Path) (dims : List Nat) (b : Buf D) (n : Nat) : Res (H5 D) :=
  if f.exists_ p = false ∧ f.hasGroup p.dropLast then do
    let data ← b.readRow 0 n
    .ok { f with sets := f.sets ++ [(p, ⟨dims, data⟩)] }
  else .throw "H5::FileIException"

/-- The return value of `H5Gget_objinfo`: 0 if the object exists, otherwise negative. -/
def objInfo (f : H5 D) (p : Path) : Int := if f.exists_ p then 0 else -1

/-- `AddGroup` (`HDF5Output.cpp:28-42`). The return value is stored in a `bool`. Not modelled: the
pointer `m_group`, which is null until a group has been created. -/
def addGroup (f : H5 D) (p : Path) : Res (H5 D) :=
  let status : Bool := f.objInfo p ≠ 0
  if status = false then f.createGroup p else .ok f

/-- `AddArray1D` (`HDF5Output.cpp:53-59`). -/
def addArray1D (f : H5 D) (b : Buf D) (length : Nat) (p : Path) : Res (H5 D) :=
  f.createDataSet p [length] b length

/-- `AddArray2D` (`HDF5Output.cpp:61-69`). -/
def addArray2D (f : H5 D) (b : Buf D) (x y : Nat) (p : Path) : Res (H5 D) :=
  f.createDataSet p [x, y] b (x * y)

/-- `AddArray3D` (`HDF5Output.cpp:71-80`). -/
def addArray3D (f : H5 D) (b : Buf D) (x y z : Nat) (p : Path) : Res (H5 D) :=
  f.createDataSet p [x, y, z] b (x * y * z)

end H5

/-! ## The output manager -/

/-- The tracks of one particle (`OutputManager.hh:83-88`). -/
structure Track (D : Type) where
  id : Nat
  pos : List (V3 D)
  mom : List (V3 D)
  time : List D
  gamma : List D

/-- The reference values for output; `none` when the manager has no unit system. -/
structure OutUnits (D : Type) where
  length : D
  momentum : D
  time : D

/-- `class OutputManager` (`OutputManager.hh:66-88`). -/
structure OutMgr (D : Type) where
  file : H5 D
  units : Option (OutUnits D)
  singlePartBool : Bool
  partListBool : Bool
  sourceBool : Bool
  primary : List (Option (Buf D))
  electron : List (Option (Buf D))
  positron : List (Option (Buf D))
  photon : List (Option (Buf D))
  electronCount : List Nat
  positronCount : List Nat
  photonCount : List Nat
  tracks : List (Track D)

/-- Conversion to `unsigned int`. -/
def u32 (n : Nat) : Nat := n % 2 ^ 32

/-- `v[i] = a` on a `std::vector`. -/
def vset {α : Type} (v : List α) (i : Nat) (a : α) : Res (List α) :=
  if i < v.length then .ok (v.set i a) else .ub "out-of-bounds write"

namespace OutMgr

/-- Constructors (`OutputManager.cpp:4-38`). -/
def new (units : Option (OutUnits D)) : Res (OutMgr D) := do
  let f ← (H5.empty : H5 D).addGroup ["Particles"]
  let f ← f.addGroup ["Fields"]
  let f ← f.addGroup ["Histograms"]
  .ok { file := f, units, singlePartBool := false, partListBool := false, sourceBool := false
        primary := [], electron := [], positron := [], photon := []
        electronCount := [], positronCount := [], photonCount := [], tracks := [] }

/-- `InitSource` (`OutputManager.cpp:210-219`). -/
def initSource (m : OutMgr D) (nEvents : Nat) : OutMgr D :=
  { m with
    primary := List.replicate nEvents none
    electron := List.replicate nEvents none
    positron := List.replicate nEvents none
    photon := List.replicate nEvents none
    electronCount := List.replicate nEvents 0
    positronCount := List.replicate nEvents 0
    photonCount := List.replicate nEvents 0 }

/-- The eight numbers stored for a particle (`OutputManager.cpp:226-233`,
`256-270`). -/
def row (eventID : Nat) (p : Particle D) : List D :=
  [lit eventID, p.energy, p.momentum.x, p.momentum.y, p.momentum.z,
    p.position.x, p.position.y, p.position.z]

/-- `StoreSource` with `primary = true` (`OutputManager.cpp:223-234`). -/
def storePrimary (m : OutMgr D) (l : PList D) (eventID : Nat) : Res (OutMgr D) := do
  let p ← l.get 0
  let b ← (Buf.new 8 : Buf D).writeRow 0 (row eventID p)
  let primary ← vset m.primary eventID (some b)
  .ok { m with primary }

/-- The first pass over the list: the number of particles of a species (`OutputManager.cpp:237-245`). -/
def countName (name : String) : List (Particle D) → Nat → Nat
  | [], n => n
  | p :: ps, n => countName name ps (if p.name = name then u32 (n + 1) else n)

/-- The three arrays and counters of the second pass. -/
structure Fill (D : Type) where
  electronData : Buf D
  positronData : Buf D
  photonData : Buf D
  electrons : Nat
  positrons : Nat
  photons : Nat

/-- One turn of the second pass (`OutputManager.cpp:254-308`). -/
def fillOne (eventID : Nat) (s : Fill D) (p : Particle D) : Res (Fill D) :=
  if p.name = "Electron" then do
    let b ← s.electronData.writeRow (u32 (s.electrons * 8)) (row eventID p)
    .ok { s with electronData := b, electrons := u32 (s.electrons + 1) }
  else if p.name = "Positron" then do
    let b ← s.positronData.writeRow (u32 (s.positrons * 8)) (row eventID p)
    .ok { s with positronData := b, positrons := u32 (s.positrons + 1) }
  else if p.name = "Photon" then do
    let b ← s.photonData.writeRow (u32 (s.photons * 8)) (row eventID p)
    .ok { s with photonData := b, photons := u32 (s.photons + 1) }
  else .ok s

/-- The second pass (`OutputManager.cpp:252-309`). -/
def fillAll (eventID : Nat) (s : Fill D) : List (Particle D) → Res (Fill D)
  | [] => .ok s
  | p :: ps => do
    let s ← fillOne eventID s p
    fillAll eventID s ps

/-- `StoreSource` with `primary = false` (`OutputManager.cpp:235-313`). -/
def storeFinal (m : OutMgr D) (l : PList D) (eventID : Nat) : Res (OutMgr D) := do
  let s ← fillAll eventID
    { electronData := Buf.new (u32 (countName "Electron" l.items 0 * 8))
      positronData := Buf.new (u32 (countName "Positron" l.items 0 * 8))
      photonData := Buf.new (u32 (countName "Photon" l.items 0 * 8))
      electrons := 0, positrons := 0, photons := 0 } l.items
  let electronCount ← vset m.electronCount eventID s.electrons
  let positronCount ← vset m.positronCount eventID s.positrons
  let photonCount ← vset m.photonCount eventID s.photons
  let electron ← vset m.electron eventID (some s.electronData)
  let positron ← vset m.positron eventID (some s.positronData)
  let photon ← vset m.photon eventID (some s.photonData)
  .ok { m with electronCount, positronCount, photonCount, electron, positron, photon }

/-- `StoreTrack` (`OutputManager.cpp:316-327`). -/
def storeTrack (m : OutMgr D) (l : PList D) (eventID : Nat) : OutMgr D :=
  { m with tracks := m.tracks ++ l.items.map fun p =>
      ⟨eventID, p.posHistory, p.momHistory, p.timeHistory, p.gammaHistory⟩ }

/-- Rows `j, j+1, ...` (`n` of them) of one event copied to `dst` from cell `idx` on
(`OutputManager.cpp:373-384`, likewise `385-396`, `397-408`). -/
def copyRows (src : Option (Buf D)) : Nat → Nat → Buf D → Nat → Res (Buf D × Nat)
  | 0, _, dst, idx => .ok (dst, idx)
  | n + 1, j, dst, idx => do
    let b ← deref src
    let vs ← b.readRow (u32 (j * 8)) 8
    let dst ← dst.writeRow idx vs
    copyRows src n (j + 1) dst (u32 (idx + 8))

/-- The rows of all events (`OutputManager.cpp:371-409`, for one species). Simplified: the three
species, which have separate arrays, are copied one after the other. -/
def copyEvents : List (Option (Buf D)) → List Nat → Buf D → Nat → Res (Buf D)
  | [], _, dst, _ => .ok dst
  | src :: srcs, counts, dst, idx => do
    let n ← rd counts 0
    let (dst, idx) ← copyRows src n 0 dst idx
    copyEvents srcs (counts.drop 1) dst idx

/-- The table of one species before it is written: number of rows and data
(`OutputManager.cpp:353-409`). -/
def speciesTable (events : List (Option (Buf D))) (counts : List Nat) : Res (Nat × Buf D) := do
  let total := counts.foldl (fun t c => u32 (t + c)) 0
  let b ← copyEvents events counts (Buf.new (u32 (total * 8))) 0
  .ok (total, b)

/-- The primaries, one row per event (`OutputManager.cpp:339-349`). -/
def copyPrimary : List (Option (Buf D)) → Nat → Buf D → Res (Buf D)
  | [], _, dst => .ok dst
  | src :: srcs, i, dst => do
    let b ← deref src
    let vs ← b.readRow 0 8
    let dst ← dst.writeRow (u32 (i * 8)) vs
    copyPrimary srcs (i + 1) dst

/-- Where the tables go (`OutputManager.cpp:351,413,418,423`). -/
def sourcePath (name : String) : Path := ["Particles", "ParticleSource", name]

/-- A table is written only if it has rows (`OutputManager.cpp:410-424`). -/
def addTable (f : H5 D) (t : Nat × Buf D) (name : String) : Res (H5 D) :=
  if 0 < t.1 then f.addArray2D t.2 t.1 8 (sourcePath name) else .ok f

/-- A group is added only the first time (`OutputManager.cpp:63-67`, `122-126`, `190-194`, `333-337`,
`434-438`). -/
def groupOnce (f : H5 D) (done : Bool) (p : Path) : Res (H5 D) :=
  if done = false then f.addGroup p else .ok f

/-- The source part of `OutputEvents` (`OutputManager.cpp:331-429`). -/
def outputSource (m : OutMgr D) : Res (OutMgr D) := do
  let f ← groupOnce m.file m.sourceBool ["Particles", "ParticleSource"]
  let prime ← copyPrimary m.primary 0 (Buf.new (m.primary.length * 8))
  let f ← f.addArray2D prime m.primary.length 8 (sourcePath "Primary")
  let e ← speciesTable m.electron m.electronCount
  let p ← speciesTable m.positron m.positronCount
  let g ← speciesTable m.photon m.photonCount
  let f ← addTable f e "Electrons"
  let f ← addTable f p "Positrons"
  let f ← addTable f g "Photons"
  .ok { m with file := f, sourceBool := true }

/-- The cells of a list of vectors, each component times `s` (`OutputManager.cpp:464-477`). -/
def vecCells (vs : List (V3 D)) (s : D) : Buf D :=
  vs.flatMap fun v => [some (v.x *. s), some (v.y *. s), some (v.z *. s)]

/-- The reference values in use (`OutputManager.cpp:440-452`). -/
def refs (m : OutMgr D) : OutUnits D :=
  match m.units with
  | none => ⟨lit 1, lit 1, lit 1⟩
  | some u => u

/-- The data sets of one track (`OutputManager.cpp:461-493`): `gamma` is multiplied by the time unit. -/
def trackSets (u : OutUnits D) (f : H5 D) (path : Path) (t : Track D) : Res (H5 D) := do
  let f ← f.addArray2D (vecCells t.pos u.length) t.pos.length 3 (path ++ ["Position"])
  let f ← f.addArray2D (vecCells t.mom u.momentum) t.mom.length 3 (path ++ ["Momentum"])
  let f ← f.addArray1D (t.time.map fun x => some (x *. u.time)) t.time.length (path ++ ["Time"])
  f.addArray1D (t.gamma.map fun x => some (x *. u.time)) t.gamma.length (path ++ ["Gamma"])

/-- One track (`OutputManager.cpp:457-494`). -/
def writeTrack (u : OutUnits D) (f : H5 D) (i : Nat) (t : Track D) : Res (H5 D) := do
  let path : Path := ["Particles", "ParticleTrack", "Event" ++ toString i]
  let f ← f.addGroup path
  trackSets u f path t

/-- All tracks (`OutputManager.cpp:455-495`). -/
def writeTracks (u : OutUnits D) (f : H5 D) (i : Nat) : List (Track D) → Res (H5 D)
  | [] => .ok f
  | t :: ts => do
    let f ← writeTrack u f i t
    writeTracks u f (i + 1) ts

/-- The track part of `OutputEvents` (`OutputManager.cpp:432-497`). -/
def outputTracks (m : OutMgr D) : Res (OutMgr D) := do
  let f ← groupOnce m.file m.partListBool ["Particles", "ParticleTrack"]
  let f ← writeTracks m.refs f 0 m.tracks
  .ok { m with file := f, partListBool := true }

/-- The source part, if asked for (`OutputManager.cpp:331`). -/
def outputSourceIf (m : OutMgr D) (outSource : Bool) : Res (OutMgr D) :=
  if outSource then m.outputSource else .ok m

/-- `OutputEvents` (`OutputManager.cpp:329-498`). -/
def outputEvents (m : OutMgr D) (outSource outTrack : Bool) : Res (OutMgr D) := do
  let m ← m.outputSourceIf outSource
  if outTrack then m.outputTracks else .ok m

/-- The data sets of a histogram (`OutputManager.cpp:543-546`). -/
def histSets (f : H5 D) (path : Path) (h : Hist D) : Res (H5 D) := do
  let f ← f.addArray1D (h.centres.map some) h.nBins (path ++ ["BinCentres"])
  f.addArray1D (h.values.map some) h.nBins (path ++ ["BinValues"])

/-- `OutputHist` (`OutputManager.cpp:540-547`). -/
def outputHist (m : OutMgr D) (h : Hist D) : Res (OutMgr D) := do
  let path : Path := ["Histograms", h.name]
  let f ← m.file.addGroup path
  let f ← histSets f path h
  .ok { m with file := f }

/-! ### Fields on a grid -/

/-- The index of a grid point (`OutputManager.cpp:521`): computed with 64 bits, stored with 32. -/
def gridIndex (ny nz i j k : Nat) : Nat := (i * ny * nz + j * nz + k) % 2 ^ 32

/-- The loop over `k` from `k` on, `n` more points (`OutputManager.cpp:519-527`), for one component of
one field. -/
def gridK (g : Nat → Nat → Nat → D) (ny nz i j : Nat) : Nat → Nat → Buf D → Res (Buf D)
  | 0, _, b => .ok b
  | n + 1, k, b => do
    let b ← b.write (gridIndex ny nz i j k) (g i j k)
    gridK g ny nz i j n (k + 1) b

/-- The loop over `j` (`OutputManager.cpp:517-528`). -/
def gridJ (g : Nat → Nat → Nat → D) (ny nz i : Nat) : Nat → Nat → Buf D → Res (Buf D)
  | 0, _, b => .ok b
  | n + 1, j, b => do
    let b ← gridK g ny nz i j nz 0 b
    gridJ g ny nz i n (j + 1) b

/-- The loop over `i` (`OutputManager.cpp:515-529`). -/
def gridI (g : Nat → Nat → Nat → D) (ny nz : Nat) : Nat → Nat → Buf D → Res (Buf D)
  | 0, _, b => .ok b
  | n + 1, i, b => do
    let b ← gridJ g ny nz i ny 0 b
    gridI g ny nz n (i + 1) b

/-- The buffer of one component of one field at one time (`OutputManager.cpp:513-529`). `g i j k` is
the component at grid point `i`, `j`, `k`. -/
def gridBuffer (g : Nat → Nat → Nat → D) (nx ny nz : Nat) : Res (Buf D) :=
  gridI g ny nz nx 0 (Buf.new (nx * ny * nz))

/-- One component of one field in the file (`OutputManager.cpp:511-536`, for one of the two fields).
Simplified: the two fields of a direction are computed one after the other. -/
def outGrid (f : H5 D) (g : Nat → Nat → Nat → D) (nx ny nz : Nat) (p : Path) : Res (H5 D) := do
  let b ← gridBuffer g nx ny nz
  f.addArray3D b nx ny nz p

/-- The field at a grid point (`OutputManager.cpp:522-524`). -/
def fieldAt (field : Field D) (t : D) (xs ys zs : List D) (i j k : Nat) : V3 D × V3 D :=
  field t ⟨xs.getD i (lit 0), ys.getD j (lit 0), zs.getD k (lit 0)⟩

/-- One component of one field at one time: `g` selects it (`OutputManager.cpp:511-536`). -/
def outComponent (f : H5 D) (field : Field D) (t : D) (xs ys zs : List D) (g : V3 D × V3 D → D)
    (p : Path) : Res (H5 D) :=
  outGrid f (fun i j k => g (fieldAt field t xs ys zs i j k)) xs.length ys.length zs.length p

/-- The data sets of both fields at one time (`OutputManager.cpp:511-536`). -/
def fieldSets (f : H5 D) (field : Field D) (group : Path) (t : D) (xs ys zs : List D) :
    Res (H5 D) := do
  let f ← outComponent f field t xs ys zs (·.1.x) (group ++ ["E0"])
  let f ← outComponent f field t xs ys zs (·.2.x) (group ++ ["B0"])
  let f ← outComponent f field t xs ys zs (·.1.y) (group ++ ["E1"])
  let f ← outComponent f field t xs ys zs (·.2.y) (group ++ ["B1"])
  let f ← outComponent f field t xs ys zs (·.1.z) (group ++ ["E2"])
  outComponent f field t xs ys zs (·.2.z) (group ++ ["B2"])

/-- Both fields at one time (`OutputManager.cpp:508-536`). -/
def outFieldTime (f : H5 D) (field : Field D) (n : Nat) (t : D) (xs ys zs : List D) :
    Res (H5 D) := do
  let group : Path := ["Fields", toString n]
  let f ← f.addGroup group
  fieldSets f field group t xs ys zs

/-- The loop over times (`OutputManager.cpp:505-537`). -/
def outFieldTimes (field : Field D) (xs ys zs : List D) : Nat → List D → H5 D → Res (H5 D)
  | _, [], f => .ok f
  | n, t :: ts, f => do
    let f ← outFieldTime f field n t xs ys zs
    outFieldTimes field xs ys zs (n + 1) ts f

/-- `OutEMField` (`OutputManager.cpp:500-538`). -/
def outEMField (m : OutMgr D) (field : Field D) (ts xs ys zs : List D) : Res (OutMgr D) := do
  let f ← outFieldTimes field xs ys zs 0 ts m.file
  .ok { m with file := f }

/-! ### Single particles and lists -/

/-- The four data sets of a particle (`OutputManager.cpp:88-116`, `152-183`); here `gamma` has no
unit. Simplified: in `SingleParticle` the momentum history is read with the length of the position
history, which is the same. -/
def historySets (u : OutUnits D) (f : H5 D) (p : Particle D) (path : Path) : Res (H5 D) := do
  let f ← f.addArray2D (vecCells p.posHistory u.length) p.posHistory.length 3 (path ++ ["Position"])
  let f ← f.addArray2D (vecCells p.momHistory u.momentum) p.momHistory.length 3
    (path ++ ["Momentum"])
  let f ← f.addArray1D (p.timeHistory.map fun x => some (x *. u.time)) p.timeHistory.length
    (path ++ ["Time"])
  f.addArray1D (p.gammaHistory.map some) p.gammaHistory.length (path ++ ["Gamma"])

/-- The group of a particle and its data sets (`OutputManager.cpp:86-116`, `150-183`). -/
def writeHistories (u : OutUnits D) (f : H5 D) (p : Particle D) (path : Path) : Res (H5 D) := do
  let f ← f.addGroup path
  historySets u f p path

/-- `SingleParticle` (`OutputManager.cpp:61-118`). -/
def singleParticle (m : OutMgr D) (p : Particle D) (name : String) : Res (OutMgr D) := do
  let f ← groupOnce m.file m.singlePartBool ["Particles", "Single"]
  if p.tracking = false then .exit 1
  else do
    let f ← writeHistories m.refs f p ["Particles", "Single", name]
    .ok { m with file := f, singlePartBool := true }

/-- The loop of `ListTracks` (`OutputManager.cpp:128-185`). -/
def listTracksLoop (u : OutUnits D) (name : String) : Nat → List (Particle D) → H5 D → Res (H5 D)
  | _, [], f => .ok f
  | i, p :: ps, f =>
    if p.tracking = false then .exit 1
    else do
      let f ← writeHistories u f p ["Particles", "ParticleList", name, toString i]
      listTracksLoop u name (i + 1) ps f

/-- `ListTracks` (`OutputManager.cpp:120-186`). -/
def listTracks (m : OutMgr D) (l : PList D) (name : String) : Res (OutMgr D) := do
  let f ← groupOnce m.file m.partListBool ["Particles", "ParticleList"]
  let f ← f.addGroup ["Particles", "ParticleList", name]
  let f ← listTracksLoop m.refs name 0 l.items f
  .ok { m with file := f, partListBool := true }

/-- The cells of `ListProperties` (`OutputManager.cpp:198-206`). -/
def propertyCells : Nat → List (Particle D) → Buf D
  | _, [] => []
  | i, p :: ps =>
    [some (lit i), some p.energy, some p.position.x, some p.position.y, some p.position.z]
      ++ propertyCells (i + 1) ps

/-- `ListProperties` (`OutputManager.cpp:188-208`). -/
def listProperties (m : OutMgr D) (l : PList D) (setName : String) : Res (OutMgr D) := do
  let f ← groupOnce m.file m.partListBool ["Particles", "ParticleList"]
  let group : Path := ["Particles", "ParticleList", l.name]
  let f ← f.addGroup group
  let f ← f.addArray2D (propertyCells 0 l.items) l.nPart 5 (group ++ [setName])
  .ok { m with file := f, partListBool := true }

/-! ### Histories of calls -/

/-- A call of a member function. -/
inductive Call (D : Type) where
  | initSource (n : Nat)
  | storePrimary (l : PList D) (eventID : Nat)
  | storeFinal (l : PList D) (eventID : Nat)
  | storeTrack (l : PList D) (eventID : Nat)
  | outputEvents (outSource outTrack : Bool)
  | outputHist (h : Hist D)
  | outEMField (field : Field D) (ts xs ys zs : List D)
  | singleParticle (p : Particle D) (name : String)
  | listTracks (l : PList D) (name : String)
  | listProperties (l : PList D) (name : String)

/-- The effect of a call. -/
def call (m : OutMgr D) : Call D → Res (OutMgr D)
  | .initSource n => .ok (m.initSource n)
  | .storePrimary l j => m.storePrimary l j
  | .storeFinal l j => m.storeFinal l j
  | .storeTrack l j => .ok (m.storeTrack l j)
  | .outputEvents s t => m.outputEvents s t
  | .outputHist h => m.outputHist h
  | .outEMField field ts xs ys zs => m.outEMField field ts xs ys zs
  | .singleParticle p name => m.singleParticle p name
  | .listTracks l name => m.listTracks l name
  | .listProperties l name => m.listProperties l name

/-- A history of calls. -/
def calls (m : OutMgr D) : List (Call D) → Res (OutMgr D)
  | [] => .ok m
  | c :: cs => do
    let m ← m.call c
    calls m cs

end OutMgr
end QED
