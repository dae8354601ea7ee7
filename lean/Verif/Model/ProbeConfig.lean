/-
Probes: the entries of the configuration, creation, output files, and all probes of a run.
-/
import Verif.Model.Probe
import Verif.Model.Config
import Verif.Model.NavierStokes

namespace PetIBM

variable {K : Type} [Field K] [LinearOrder K]

/-! ### Configuration -/

/-- One entry of the list `probes` as far as the code reads it (`src/misc/probes.cpp` 32, 71-76, 174-196, 624). `none` for keys that are missing or whose
value cannot be converted: `as<T>()` throws for both, `as<T>(default)` gives the default for both. The key `name` is stored and never used. -/
structure ProbeNode (K : Type) where
  type : Option String
  field : Option String
  path : Option String
  nMonitor : Option ℤ := none
  tStart : Option K := none
  tEnd : Option K := none
  viewer : Option String := none
  atol : Option K := none
  nSum : Option ℤ := none
  /-- the map `box`: name of the direction and the two limits, in the order of the file; empty if the key is missing -/
  box : List (String × Option K × Option K) := []
  /-- the sequence `loc` -/
  loc : List K := []

/-- `type::ProbeType`, `include/petibm/type.h` 122-128. -/
inductive ProbeType where
  | POINT | LINE | SURFACE | VOLUME
deriving DecidableEq, Repr

/-- `str2ProbeType[name]` (`src/misc/type.cpp` 53-55); unknown names give enumerator 0 (POINT). -/
def str2ProbeType (s : String) : ProbeType :=
  if s = "POINT" then .POINT else if s = "LINE" then .LINE else if s = "SURFACE" then .SURFACE
  else if s = "VOLUME" then .VOLUME else .POINT

/-- The members of `ProbeBase` that do not change after `init`. (`include/petibm/probes.h` 65-88) -/
structure ProbeBase (K : Type) where
  field : ℕ
  path : String
  times : ProbeTimes K

/-- `ProbeBase::init`, `src/misc/probes.cpp` 56-81. -/
def probeBaseInit (node : ProbeNode K) : Except Error (ProbeBase K) := do
  let field ← required node.field
  let path ← required node.path
  return ⟨str2fd field, path, ⟨node.nMonitor.getD 1, node.tStart.getD 0, node.tEnd.getD (10 ^ 12)⟩⟩

/-- `viewerType` of a volume probe. (`src/misc/probes.cpp` 175-178) -/
inductive ViewerType where
  | ascii | hdf5
deriving DecidableEq, Repr

/-- `src/misc/probes.cpp` 174-178: for other names the pointer `viewerType` is not set at all (`none`). -/
def viewerOption (name : Option String) : Option ViewerType :=
  let s := name.getD "ascii"
  if s = "ascii" then some .ascii else if s = "hdf5" then some .hdf5 else none

/-- Body of the loop over the map `box`, `src/misc/probes.cpp` 191-196. -/
def boxEntry (box : ℕ → K × K) (item : String × Option K × Option K) : Except Error (ℕ → K × K) := do
  let lo ← required item.2.1
  let hi ← required item.2.2
  return Function.update box (str2dir item.1) (lo, hi)

/-- `src/misc/probes.cpp` 190-196: the limits of the directions that are not listed remain zero. -/
def readBox (items : List (String × Option K × Option K)) : Except Error (ℕ → K × K) := items.foldlM boxEntry fun _ => (0, 0)

/-- `src/misc/probes.cpp` 622-624. -/
def readLoc (dim : ℕ) (loc : List K) : Except Error (ℕ → K) := do
  let l ← (List.range dim).mapM fun d => required loc[d]?
  return fun d => l.getD d 0

/-! ### Files -/

/-- What is printed to an ASCII file in one call: a named vector, an index set, the lines `t = …` and `count = …` of a volume probe, and the line of a
point probe. The digits are not represented. (`src/misc/probes.cpp` 418-420, 485-486, 584-589, 682) -/
inductive ProbeBlock (K : Type) where
  | vector (name : String) (values : List K)
  | indices (is : List ℤ)
  | time (t : K)
  | count (c : ℤ)
  | line (t v : K)
deriving DecidableEq

/-- A data set with its group and name, its values and its attribute `count`. (`src/misc/probes.cpp` 559-571) -/
structure ProbeDataset (K : Type) where
  group : String
  name : String
  values : List K
  count : Option ℤ
deriving DecidableEq

/-- An output file of a probe: the blocks of an ASCII file; the vectors and the index set in the group `mesh` of an HDF5 file and its other data sets.
(`src/misc/probes.cpp` 332-494, 529-592) -/
inductive ProbeFile (K : Type) where
  | ascii (blocks : List (ProbeBlock K))
  | hdf5 (mesh : List (String × List K)) (is : Option (List ℤ)) (data : List (ProbeDataset K))
deriving DecidableEq

/-- The names of the directions, `src/misc/probes.cpp` 374 and 411. -/
def probeDirNames : List String := ["x", "y", "z"]

/-- `ProbeVolume::writeGrid`, `src/misc/probes.cpp` 332-430: the file is created anew (`FILE_MODE_WRITE`) and has one vector for each direction of the
mesh. The first process does it alone. -/
def writeGrid (viewer : ViewerType) (coord : List (List K)) : ProbeFile K :=
  match viewer with
  | .ascii => .ascii (List.zipWith .vector probeDirNames coord)
  | .hdf5 => .hdf5 (List.zip probeDirNames coord) none []

/-- `ProbeVolume::writeIS`, `src/misc/probes.cpp` 433-491: into the file that exists. Opening a file of the other kind is not represented (it is the
error `fileRead`); `writeGrid` has just created the file with the same viewer. -/
def writeIS (viewer : ViewerType) (is : List ℤ) (file : ProbeFile K) : Except Error (ProbeFile K) :=
  match viewer, file with
  | .ascii, .ascii b => .ok (.ascii (b ++ [.indices is]))
  | .hdf5, .hdf5 mesh _ data => .ok (.hdf5 mesh (some is) data)
  | _, _ => .error .fileRead

/-- `writeVec_HDF5`, `src/misc/probes.cpp` 553-573: `VecView` overwrites a data set that exists. -/
def putData (data : List (ProbeDataset K)) (x : ProbeDataset K) : List (ProbeDataset K) :=
  if data.any fun y => decide (y.group = x.group ∧ y.name = x.name) then
    data.map fun y => if y.group = x.group ∧ y.name = x.name then x else y
  else data ++ [x]

/-- `writeVec_ASCII`, `src/misc/probes.cpp` 576-592; vectors that are no grid lines have no name of their own. -/
def outputBlocks (o : ProbeOutput K) : List (ProbeBlock K) :=
  [.time o.t] ++ (if o.count ≠ 0 then [.count o.count] else []) ++ [.vector "" o.values]

/-- `ProbeVolume::writeVec`, `src/misc/probes.cpp` 529-592; `label` is `std::to_string`. As for `writeIS` the other kinds of files are not
represented. -/
def writeVec (label : K → String) (viewer : ViewerType) (field : ℕ) (o : ProbeOutput K) (file : Option (ProbeFile K)) : Except Error (ProbeFile K) :=
  match viewer, file with
  | .ascii, some (.ascii b) => .ok (.ascii (b ++ outputBlocks o))
  | .hdf5, some (.hdf5 mesh is data) =>
    .ok (.hdf5 mesh is (putData data ⟨fd2str field, label o.t, o.values, if o.count ≠ 0 then some o.count else none⟩))
  | _, _ => .error .fileRead

/-! ### Probe objects -/

/-- A probe object: the members of all processes. In `incomplete` the function `init` returned an error code, which the constructors do not look at
(`src/misc/probes.cpp` 154-160, 598-604): its index sets, vectors and interpolation objects do not exist. -/
inductive ProbeObject (K : Type) where
  | volume (base : ProbeBase K) (viewer : ViewerType) (nSum : ℤ) (probe : VolumeProbe K) (acc : Accumulator K)
  | point (base : ProbeBase K) (ranks : List (PointProbe K))
  | incomplete (base : ProbeBase K)

/-- The members of the base class. (`include/petibm/probes.h` 65-88) -/
def ProbeObject.base : ProbeObject K → ProbeBase K
  | .volume b _ _ _ _ => b
  | .point b _ => b
  | .incomplete b => b

/-- Does the field have a DMDA object? `mesh->da[field]` is a null pointer for a third velocity component in two dimensions and for the vertices
(`src/mesh/cartesianmesh.cpp` 533-588). -/
def hasDMDA (L : Layout) (f : ℕ) : Bool := decide (f < L.dim ∨ f = 3)

/-- `ProbeVolume::init`, `src/misc/probes.cpp` 163-222: the object and its file. `writable` tells which files can be created; PETSc returns an error code
for the others (`writeGrid`; the processes that do not open the file themselves are not followed). Comparing the pointer that was not set is undefined
(line 339), as is the use of a DMDA object that does not exist (line 274). -/
def probeVolumeInit (L : Layout) (axes : ℕ → Axis K) (writable : String → Bool) (node : ProbeNode K) :
    Except Error (ProbeObject K × ProbeFile K) := do
  let base ← probeBaseInit node
  let box ← readBox node.box
  let M ← getInfo L axes base.field box (node.atol.getD (1 / 10 ^ 6))
  let coord ← createGrid L axes base.field M
  match viewerOption node.viewer with
  | none => .error .ub
  | some viewer =>
    if writable base.path = false then .error .fileRead
    else if hasDMDA L base.field = false then .error .ub
    else
      let s ← (List.range L.mpiSize).mapM fun r => createIS L base.field M r
      let P : VolumeProbe K := ⟨M, coord, s.flatMap (·.1), s.flatMap (·.2)⟩
      let file ← writeIS viewer P.isNatural (writeGrid viewer coord)
      return (.volume base viewer (node.nSum.getD 0) P Accumulator.init, file)

/-- `ProbePoint::init`, `src/misc/probes.cpp` 607-645, on all processes: the object and its file, which every process creates. Simplification: a field
without DMDA object is undefined behaviour here before the file is opened (in the code in line 642). -/
def probePointInit (L : Layout) (axes : ℕ → Axis K) (writable : String → Bool) (node : ProbeNode K) :
    Except Error (ProbeObject K × ProbeFile K) := do
  let base ← probeBaseInit node
  let loc ← readLoc L.dim node.loc
  if hasDMDA L base.field = false then .error .ub
  else
    let _ ← (List.range L.mpiSize).mapM fun r => isPointOnLocalProc L axes base.field r loc
    if writable base.path = false then .error .fileRead
    else
      let ranks ← (List.range L.mpiSize).mapM fun r => pointInit L axes base.field loc r
      return (.point base ranks, .ascii [])

/-- The constructors `ProbeVolume::ProbeVolume` and `ProbePoint::ProbePoint`, `src/misc/probes.cpp` 154-160 and 598-604, with the result of `init`: the
object, and the file if it was created. -/
def probeConstruct (node : ProbeNode K) (init : Except Error (ProbeObject K × ProbeFile K)) : Except Error (ProbeObject K × Option (ProbeFile K)) := do
  match ← ignoringCode init with
  | some x => return (x.1, some x.2)
  | none =>
    let base ← probeBaseInit node
    return (.incomplete base, none)

/-- `createProbe`, `src/misc/probes.cpp` 22-50. -/
def createProbe (L : Layout) (axes : ℕ → Axis K) (writable : String → Bool) (node : ProbeNode K) :
    Except Error (ProbeObject K × Option (ProbeFile K)) :=
  match str2ProbeType (node.type.getD "VOLUME") with
  | .VOLUME => probeConstruct node (probeVolumeInit L axes writable node)
  | .POINT => probeConstruct node (probePointInit L axes writable node)
  | _ => .error .argUnknownType

/-- The output files of the probes, by path. (`src/misc/probes.cpp` 380, 417, 206, 636) -/
abbrev ProbeDisk (K : Type) := String → Option (ProbeFile K)

/-- The loop over the entries of `probes`, `applications/navierstokes/navierstokes.cpp` 165-177; without the key there are no entries. -/
def createProbes (L : Layout) (axes : ℕ → Axis K) (writable : String → Bool) (output : String) :
    List (ProbeNode K) → ProbeDisk K → Except Error (List (ProbeObject K) × ProbeDisk K)
  | [], disk => .ok ([], disk)
  | node :: rest, disk => do
    let path ← required node.path
    let (p, file) ← createProbe L axes writable { node with path := some (output ++ "/" ++ path) }
    let disk := match file with
      | some f => Function.update disk p.base.path (some f)
      | none => disk
    let (ps, disk) ← createProbes L axes writable output rest disk
    return (p :: ps, disk)

/-! ### Monitoring -/

/-- `ProbeBase::monitor` with `monitorVec` of the class, `src/misc/probes.cpp` 114-148, 494-526 and 665-687, on all processes: the new members and the new
contents of the file. The processes print in rank order (at most one of them has the point). An incomplete object follows a null pointer or a vector that
was never created. -/
def ProbeObject.monitor (L : Layout) (label : K → String) (s : Snapshot K) (p : ProbeObject K) (file : Option (ProbeFile K)) :
    Except Error (ProbeObject K × Option (ProbeFile K)) :=
  match p with
  | .volume base viewer nSum P A => do
    let (A, o) ← volumeMonitor L base.field base.times nSum P A s
    match o with
    | none => return (.volume base viewer nSum P A, file)
    | some o =>
      let f ← writeVec label viewer base.field o file
      return (.volume base viewer nSum P A, some f)
  | .point base ranks => do
    match ← probeMonitor L.dim base.field base.times s.n s.t with
    | none => return (.point base ranks, file)
    | some src =>
      let q := match src with
        | .velocity _ => s.U
        | .pressure => s.p
      let outs ← ranks.zipIdx.mapM fun x => pointMonitor L base.field x.2 x.1 q
      match file with
      | some (.ascii b) => return (.point base (outs.map (·.1)), some (.ascii (b ++ (outs.filterMap (·.2)).map (ProbeBlock.line s.t))))
      | _ => .error .fileRead
  | .incomplete base => do
    match ← probeMonitor L.dim base.field base.times s.n s.t with
    | none => return (.incomplete base, file)
    | some _ => .error .ub

/-- `NavierStokesSolver::monitorProbes`, `applications/navierstokes/navierstokes.cpp` 840-855. Each probe has a viewer of its own; what is printed reaches
the file at once (buffers of the C library are not represented; they matter only if two probes share a file). -/
def monitorProbes (L : Layout) (label : K → String) (s : Snapshot K) :
    List (ProbeObject K) → ProbeDisk K → Except Error (List (ProbeObject K) × ProbeDisk K)
  | [], disk => .ok ([], disk)
  | p :: rest, disk => do
    let (p', f) ← p.monitor L label s (disk p.base.path)
    let (ps, disk) ← monitorProbes L label s rest (Function.update disk p.base.path f)
    return (p' :: ps, disk)

/-- The probes of a run: creation and one call of `monitorProbes` for each time step. (`applications/navierstokes/navierstokes.cpp` 165-177, 304-305) -/
def probesRun (L : Layout) (axes : ℕ → Axis K) (writable : String → Bool) (label : K → String) (output : String) (nodes : List (ProbeNode K))
    (disk : ProbeDisk K) (h : List (Snapshot K)) : Except Error (List (ProbeObject K) × ProbeDisk K) := do
  let st ← createProbes L axes writable output nodes disk
  h.foldlM (fun st s => monitorProbes L label s st.1 st.2) st

end PetIBM
