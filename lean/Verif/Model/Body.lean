/-
Immersed bodies: `SingleBodyPoints` (`src/body/singlebodypoints.cpp`) and `BodyPackBase` (`src/body/bodypack.cpp`).
-/
import Verif.Model.BodyFile
import Verif.Model.Mesh

namespace PetIBM

/-- The members of `SingleBodyPoints` on all processes together. `lcl` holds `nLclPts` of the successive processes
(`createDMDA`, lines 70-77); its length is the number of processes. `coords` is known to every process. (`src/body/singlebodypoints.cpp`; `include/petibm/singlebody.h` 38-68) -/
structure SingleBody (K : Type) where
  dim : ℕ
  nPts : ℕ
  coords : List (List K)
  lcl : List ℕ
deriving DecidableEq

namespace SingleBody

variable {K : Type}

/-- `mpiSize`. (`src/body/singlebody.cpp` 28) -/
def mpiSize (b : SingleBody K) : ℕ := b.lcl.length

/-- `nLclAllProcs[r]`, `createDMDA` lines 80-84. (`src/body/singlebodypoints.cpp`) -/
def nLclAllProcs (b : SingleBody K) (r : ℕ) : ℕ := sizeOf' b.lcl r * b.dim

/-- `offsetsAllProcs`, `createDMDA` lines 87-90. (`src/body/singlebodypoints.cpp`) -/
def offsetsAllProcs (b : SingleBody K) : List ℕ :=
  Layout.prefixLoop (Layout.shiftLoop b.nLclAllProcs b.mpiSize) b.mpiSize

/-- `bgPt` on rank `r`, `createDMDA` line 70. (`src/body/singlebodypoints.cpp`) -/
def bgPt (b : SingleBody K) (r : ℕ) : ℕ := startOf b.lcl r

/-- `nLclPts` on rank `r`, `createDMDA` line 71. (`src/body/singlebodypoints.cpp`) -/
def nLclPts (b : SingleBody K) (r : ℕ) : ℕ := sizeOf' b.lcl r

/-- `SingleBodyPoints::findProc`, lines 156-172; the result is an int, -1 is possible in principle. (`src/body/singlebodypoints.cpp`) -/
def findProc (b : SingleBody K) (i : ℤ) : Except Error ℤ :=
  if i < 0 ∨ i ≥ b.nPts then .error .argSize
  else .ok ((Layout.upperBound b.offsetsAllProcs (i * b.dim) : ℤ) - 1)

/-- `SingleBodyPoints::getGlobalIndex(i, dof, idx)`, lines 174-193. (`src/body/singlebodypoints.cpp`) -/
def getGlobalIndex (b : SingleBody K) (i dof : ℤ) : Except Error ℤ :=
  if i < 0 ∨ i ≥ b.nPts then .error .argSize
  else if dof < 0 ∨ dof ≥ b.dim then .error .argSize
  else .ok (i * b.dim + dof)

/-- `SingleBodyPoints::getGlobalIndex(s, idx)`, lines 195-205. (`src/body/singlebodypoints.cpp`) -/
def getGlobalIndexS (b : SingleBody K) (s : Stencil) : Except Error ℤ := b.getGlobalIndex s.i s.c

/-- `std::upper_bound(first, last, x) - first`: number of leading elements that are not greater. (`src/body/singlebodypoints.cpp` 111-113) -/
def upperBoundK [LE K] [DecidableLE K] (v : List K) (x : K) : ℕ := (v.takeWhile fun a => decide (a ≤ x)).length

/-- The entry `meshIdx[c][d]` for one coordinate, `updateMeshIdx` lines 102-114. `PETSC_ERR_MAX_VALUE` if the coordinate is
outside of the domain. `coord[4][d]` and `n[4][d]` are those of `createVertexMesh`. (`src/body/singlebodypoints.cpp`) -/
def meshIndex [Field K] [LinearOrder K] (a : Axis K) (x : K) : Except Error ℤ :=
  if a.min ≥ x ∨ a.max ≤ x then .error .argSize
  else .ok ((upperBoundK ((vertexAxis a).coordTrue.take (vertexAxis a).n) x : ℤ) - 1)

/-- `SingleBodyPoints::updateMeshIdx` on rank `r`, lines 95-119: the array `meshIdx`. (`src/body/singlebodypoints.cpp`) -/
def updateMeshIdx [Field K] [LinearOrder K] (axes : ℕ → Axis K) (b : SingleBody K) (r : ℕ) :
    Except Error (List (List ℤ)) :=
  (List.range' (b.bgPt r) (b.nLclPts r)).mapM fun i =>
    (List.range b.dim).mapM fun d =>
      match b.coords[i]? with
      | some x =>
        match x[d]? with
        | some v => meshIndex (axes d) v
        | none => .error .ub
      | none => .error .ub

/-- `SingleBodyPoints::calculateAvgForces`, lines 207-236, component `dof`; `f r q` is entry `q` of the local array of
rank `r`. Every process sums its points, `MPI_Allreduce` adds the results in the order of the ranks. (`src/body/singlebodypoints.cpp`) -/
def calculateAvgForces [Field K] (b : SingleBody K) (f : ℕ → ℕ → K) (dof : ℕ) : K :=
  (List.range b.mpiSize).foldl (fun acc r =>
    acc + (List.range (b.nLclPts r)).foldl (fun s c => s - f r (c * b.dim + dof)) 0) 0

/-- `SingleBodyPoints::init`, lines 28-59: read the file, compare the dimensions, distribute the points. With one degree
of freedom per direction and stencil width 0 PETSc's `DMDACreate1d` accepts processes without points. (`src/body/singlebodypoints.cpp`) -/
def init (R : Reader K) (size dim : ℕ) (file : Option TextFile) : Except Error (SingleBody K) := do
  let (nPts, coords) ← readLagrangianPoints R file
  match coords with
  | [] => .error .ub
  | x :: _ =>
    if dim ≠ x.length then .error .fileRead
    else return { dim := dim, nPts := nPts, coords := coords, lcl := dmdaDefault nPts size }

end SingleBody

/-- `createSingleBody`, `src/body/singlebody.cpp` 83-99. The constructor of `SingleBodyPoints` (lines 18-25) ignores the
error code of `init`; the object then exists with indeterminate members, which is the result `none`. -/
def createSingleBody {K : Type} (R : Reader K) (size dim : ℕ) (type : String) (file : Option TextFile) :
    Except Error (Option (SingleBody K)) :=
  if type = "points" then
    match SingleBody.init R size dim file with
    | .ok b => .ok (some b)
    | .error .exception => .error .exception
    | .error .ub => .error .ub
    | .error _ => .ok none
  else .error .argWrong

/-- One entry of the YAML sequence "bodies". (`src/body/bodypack.cpp` 88-108) -/
structure BodyNode where
  name : Option String
  type : Option String
  file : Option String

/-- The members of the YAML configuration that `BodyPackBase::init` reads. (`src/body/bodypack.cpp` 55-108) -/
structure BodiesNode where
  bodies : Option (List BodyNode)
  directory : Option String

/-- The members of `BodyPackBase` on all processes together; `nLclAllProcs` and `offsetsAllProcs` are functions of the
bodies (`init` lines 117-134). (`src/body/bodypack.cpp`; `include/petibm/bodypack.h` 74-89) -/
structure BodyPack (K : Type) where
  dim : ℕ
  mpiSize : ℕ
  bodies : List (SingleBody K)

namespace BodyPack

variable {K : Type}

/-- `nPts`, `init` line 121. (`src/body/bodypack.cpp`) -/
def nPts (P : BodyPack K) : ℕ := P.bodies.foldl (fun n b => n + b.nPts) 0

/-- `nLclAllProcs[r]`, `init` lines 117-118. (`src/body/bodypack.cpp`) -/
def nLclAllProcs (P : BodyPack K) (r : ℕ) : ℕ := P.bodies.foldl (fun n b => n + b.nLclAllProcs r) 0

/-- `offsetsAllProcs`, `init` lines 128-131. (`src/body/bodypack.cpp`) -/
def offsetsAllProcs (P : BodyPack K) : List ℕ :=
  Layout.prefixLoop (Layout.shiftLoop P.nLclAllProcs P.mpiSize) P.mpiSize

/-- The file path of a body, `init` lines 103-108. `filePath[0]` of an empty string is the terminating zero. (`src/body/bodypack.cpp`) -/
def filePath (node : BodiesNode) (file : String) : Except Error String :=
  if file.toList.head? = some '/' then .ok file
  else match node.directory with
    | some d => .ok (d ++ "/" ++ file)
    | none => .error .exception

/-- `BodyPackBase::init`, `src/body/bodypack.cpp` 55-142. `fs` are the files that can be opened. Reading `nPts` of a body
whose own `init` failed is undefined (line 121). -/
def init (R : Reader K) (fs : String → Option TextFile) (size dim : ℕ) (node : BodiesNode) :
    Except Error (BodyPack K) :=
  match node.bodies with
  | none => .error .argWrong
  | some l => do
    let bodies ← l.mapM fun bn =>
      match bn.file with
      | none => .error .argWrong
      | some f => do
        let path ← filePath node f
        match ← createSingleBody R size dim (bn.type.getD "points") (fs path) with
        | none => .error .ub
        | some b => return b
    return { dim := dim, mpiSize := size, bodies := bodies }

/-- `BodyPackBase::findProc`, lines 211-227. (`src/body/bodypack.cpp`) -/
def findProc (P : BodyPack K) (bIdx ptIdx : ℤ) : Except Error ℤ :=
  if bIdx < 0 ∨ bIdx ≥ P.bodies.length then .error .argSize
  else match P.bodies[bIdx.toNat]? with
    | some b => b.findProc ptIdx
    | none => .error .ub

/-- `BodyPackBase::getGlobalIndex(bIdx, ptIdx, dof, idx)`, lines 229-246. (`src/body/bodypack.cpp`) -/
def getGlobalIndex (P : BodyPack K) (bIdx ptIdx dof : ℤ) : Except Error ℤ :=
  if bIdx < 0 ∨ bIdx ≥ P.bodies.length then .error .argSize
  else match P.bodies[bIdx.toNat]? with
    | some b => b.getGlobalIndex ptIdx dof
    | none => .error .ub

/-- `BodyPackBase::getPackedGlobalIndex(bIdx, ptIdx, dof, idx)`, lines 261-283. (`src/body/bodypack.cpp`) -/
def getPackedGlobalIndex (P : BodyPack K) (bIdx ptIdx dof : ℤ) : Except Error ℤ := do
  let p ← P.findProc bIdx ptIdx
  let unPackedIdx ← P.getGlobalIndex bIdx ptIdx dof
  if p < 0 then .error .ub
  else
    match P.offsetsAllProcs[p.toNat]?, P.bodies[bIdx.toNat]? with
    | some off, some b =>
      match b.offsetsAllProcs[p.toNat]? with
      | some offB =>
        let idx : ℤ := off
        let idx := (P.bodies.take bIdx.toNat).foldl (fun (acc : ℤ) b' => acc + (b'.nLclAllProcs p.toNat : ℤ)) idx
        return idx + (unPackedIdx - offB)
      | none => .error .ub
    | _, _ => .error .ub

/-- `BodyPackBase::getPackedGlobalIndex(bIdx, s, idx)`, lines 285-296. (`src/body/bodypack.cpp`) -/
def getPackedGlobalIndexS (P : BodyPack K) (bIdx : ℤ) (s : Stencil) : Except Error ℤ :=
  P.getPackedGlobalIndex bIdx s.i s.c

/-- `DMCompositeGetAccessArray`: the vector of body `b` shares the memory of the packed vector `f`. The local array of a
rank holds the parts of the bodies one after the other, and the packed numbering counts the ranks in order (PETSc
`src/dm/impls/composite/pack.c`). (`src/body/bodypack.cpp` 305-318) -/
def accessArray (P : BodyPack K) (f : ℤ → K) (b r q : ℕ) : K :=
  f ((((List.range r).map fun r' => (P.bodies.map fun b' => sizeOf' b'.lcl r' * b'.dim).sum).sum +
    (((P.bodies.take b).map fun b' => sizeOf' b'.lcl r * b'.dim).sum + q) : ℕ) : ℤ)

/-- `BodyPackBase::calculateAvgForces`, lines 298-324: `fAvg[b][dof]`. (`src/body/bodypack.cpp`) -/
def calculateAvgForces [Field K] (P : BodyPack K) (f : ℤ → K) : List (List K) :=
  (List.range P.bodies.length).map fun b =>
    match P.bodies[b]? with
    | some body => (List.range P.dim).map fun dof => body.calculateAvgForces (P.accessArray f b) dof
    | none => []

end BodyPack

/-- `createBodyPack`, `src/body/bodypack.cpp` 325-333. The constructor (lines 15-19) ignores the error code of `init`;
the object whose `init` stopped half-way is the result `none`. -/
def createBodyPack {K : Type} (R : Reader K) (fs : String → Option TextFile) (size dim : ℕ) (node : BodiesNode) :
    Except Error (Option (BodyPack K)) :=
  match BodyPack.init R fs size dim node with
  | .ok P => .ok (some P)
  | .error .exception => .error .exception
  | .error .ub => .error .ub
  | .error _ => .ok none

end PetIBM
