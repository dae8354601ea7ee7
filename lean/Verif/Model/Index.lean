/-
Index translations of the Cartesian mesh: natural, global (DMDA) and packed (DMComposite) numbering.
-/
import Mathlib.Data.List.Basic
import Mathlib.Data.Int.Basic

namespace PetIBM

/-- Outcome of a function that returns a `PetscErrorCode`: `SETERRQ` codes that matter to callers. (for example `src/mesh/cartesianmesh.cpp` 600-606) -/
inductive Error where
  /-- `PETSC_ERR_ARG_WRONG` -/
  | argWrong
  /-- `PETSC_ERR_ARG_OUTOFRANGE` -/
  | argOutOfRange
  /-- `PETSC_ERR_ARG_INCOMP` -/
  | argIncompatible
  /-- `PETSC_ERR_ARG_SIZ` / `PETSC_ERR_MAX_VALUE` -/
  | argSize
  /-- `PETSC_ERR_FILE_READ` / `PETSC_ERR_FILE_OPEN` -/
  | fileRead
  /-- `PETSC_ERR_USER_INPUT` -/
  | userInput
  /-- `PETSC_ERR_SUP` (56) -/
  | unsupported
  /-- `PETSC_ERR_ARG_UNKNOWN_TYPE` -/
  | argUnknownType
  /-- `PETSC_ERR_CONV_FAILED` -/
  | convFailed
  /-- an exception of the C++ standard library or of yaml-cpp -/
  | exception
  /-- a floating point division by zero (the C++ result is inf or NaN, which the model has no value for) -/
  | notANumber
  /-- undefined behaviour of the C++ program (access outside an array, division by zero, ...) -/
  | ub
deriving DecidableEq, Repr

/-- PETSc `MatStencil`; the field order is `{k, j, i, c}` (see `include/petibm/misc.h` 130). -/
structure Stencil where
  k : ℤ
  j : ℤ
  i : ℤ
  c : ℤ
deriving DecidableEq, Repr

/-- The members of `CartesianMesh` used by the index queries: `dim`, `n[f][d]` and `periodic[f][d]`
(`src/mesh/cartesianmesh.cpp` 89-115). Fields 0,1,2 are u,v,w and 3 is the pressure. -/
structure MeshInfo where
  dim : ℕ
  n : ℕ → ℕ → ℕ
  periodic : ℕ → ℕ → Bool

/-- `CartesianMesh::getNaturalIndex(f, i, j, k, idx)`, `src/mesh/cartesianmesh.cpp` 592-676.
`debug = true` is a build without `NDEBUG`, in which the range check of lines 600-606 is compiled. -/
def getNaturalIndex (debug : Bool) (M : MeshInfo) (f : ℕ) (i j k : ℤ) : Except Error ℤ :=
  let n0 : ℤ := M.n f 0
  let n1 : ℤ := M.n f 1
  let n2 : ℤ := M.n f 2
  -- 600-606
  if debug = true ∧ (i < -1 ∨ i > n0 ∨ j < -1 ∨ j > n1 ∨ k < -1 ∨ k > n2) then
    .error .argWrong
  -- 608-617
  else if i = -1 then
    if M.periodic 0 0 then
      .ok ((n0 - 1) + j * n0 + (if M.dim = 3 then k * n1 * n0 else 0))
    else .ok (-1)
  -- 619-627
  else if i = n0 then
    if M.periodic 0 0 then
      .ok (j * n0 + (if M.dim = 3 then k * n1 * n0 else 0))
    else .ok (-1)
  -- 629-638
  else if j = -1 then
    if M.periodic 0 1 then
      .ok (i + (n1 - 1) * n0 + (if M.dim = 3 then k * n1 * n0 else 0))
    else .ok (-1)
  -- 640-648
  else if j = n1 then
    if M.periodic 0 1 then
      .ok (i + (if M.dim = 3 then k * n1 * n0 else 0))
    else .ok (-1)
  -- 650-659
  else if k = -1 then
    if M.periodic 0 2 then
      .ok (i + j * n0 + (if M.dim = 3 then (n2 - 1) * n1 * n0 else 0))
    else .ok (-1)
  -- 661-669
  else if k = n2 then
    if M.periodic 0 2 then
      .ok (i + j * n0)
    else .ok (-1)
  -- 673
  else .ok (i + j * n0 + (if M.dim = 3 then k * n1 * n0 else 0))

/-- `CartesianMesh::getNaturalIndex(f, s, idx)`, `src/mesh/cartesianmesh.cpp` 578-589. -/
def getNaturalIndexS (debug : Bool) (M : MeshInfo) (f : ℕ) (s : Stencil) : Except Error ℤ :=
  getNaturalIndex debug M f s.i s.j s.k

/-! ### Parallel layout -/

/-- Mesh plus its distribution over processes. `own f d` lists the numbers of grid lines of field `f` in
direction `d` owned by the successive process columns (`lx`, `ly`, `lz` of the DMDA); the C++ code obtains
them from PETSc in `createSingleDMDA`, `src/mesh/cartesianmesh.cpp` 492-538 (`bg`, `m`, `ed`).
`nProc d` is the number of process columns (line 551). The lists are arbitrary here; PETSc's default
choice is `dmdaDefault` below. -/
structure Layout extends MeshInfo where
  nProc : ℕ → ℕ
  own : ℕ → ℕ → List ℕ

/-- First grid line owned by process column `p` (`lclInfo.xs`, line 526). (`src/mesh/cartesianmesh.cpp`) -/
def startOf (l : List ℕ) (p : ℕ) : ℕ := (l.take p).sum

/-- Number of grid lines owned by process column `p` (`lclInfo.xm`, line 530). (`src/mesh/cartesianmesh.cpp`) -/
def sizeOf' (l : List ℕ) (p : ℕ) : ℕ := l.getD p 0

/-- Grid lines owned by process column `p`: `bg .. ed-1` (lines 526-535). (`src/mesh/cartesianmesh.cpp`) -/
def ownRange (l : List ℕ) (p : ℕ) : List ℕ := List.range' (startOf l p) (sizeOf' l p)

/-- PETSc's default distribution of `M` grid lines over `m` process columns (DMDA sources
`src/dm/impls/da/da{1,2,3}.c`: `lx[i] = M/m + ((M % m) > i)`). (`src/mesh/cartesianmesh.cpp` 506-520) -/
def dmdaDefault (M m : ℕ) : List ℕ :=
  (List.range m).map fun i => M / m + (if i < M % m then 1 else 0)

namespace Layout

/-- Number of MPI processes. (`src/mesh/cartesianmesh.cpp` 81) -/
def mpiSize (L : Layout) : ℕ := L.nProc 0 * L.nProc 1 * L.nProc 2

/-- Position of a rank in the process grid (PETSc DMDA: `rank = px + py*m + pz*m*n`). (`src/mesh/cartesianmesh.cpp` 506-520) -/
def procCoord (L : Layout) (r : ℕ) : ℕ × ℕ × ℕ :=
  (r % L.nProc 0, r / L.nProc 0 % L.nProc 1, r / (L.nProc 0 * L.nProc 1))

/-- Grid points `(i,j,k)` of field `f` owned by rank `r`, in the storage order of a DMDA vector
(`k` outermost, `i` innermost). (`src/mesh/cartesianmesh.cpp` 526-535) -/
def box (L : Layout) (f r : ℕ) : List (ℕ × ℕ × ℕ) :=
  let (px, py, pz) := L.procCoord r
  (ownRange (L.own f 2) pz).flatMap fun k =>
    (ownRange (L.own f 1) py).flatMap fun j =>
      (ownRange (L.own f 0) px).map fun i => (i, j, k)

/-- `m[f][0] * m[f][1] * m[f][2]` on rank `r` (`initDMDA`, lines 448-457, as gathered on all ranks).
Fields that do not exist (`f >= dim`) keep the initial value 0 of line 102. (`src/mesh/cartesianmesh.cpp`) -/
def UNLocalAllProcs (L : Layout) (f r : ℕ) : ℕ :=
  if f < L.dim then
    let (px, py, pz) := L.procCoord r
    sizeOf' (L.own f 0) px * sizeOf' (L.own f 1) py * sizeOf' (L.own f 2) pz
  else 0

/-- Lines 466-467: `for (r = size-1; r > 0; --r) off[r] = cnt[r-1];` on an array of zeros. (`src/mesh/cartesianmesh.cpp`) -/
def shiftLoop (cnt : ℕ → ℕ) (size : ℕ) : List ℕ :=
  (List.range' 1 (size - 1)).reverse.foldl (fun off r => off.set r (cnt (r - 1)))
    (List.replicate size 0)

/-- Lines 469-470: `for (r = 1; r < size; ++r) off[r] += off[r-1];`. (`src/mesh/cartesianmesh.cpp`) -/
def prefixLoop (off0 : List ℕ) (size : ℕ) : List ℕ :=
  (List.range' 1 (size - 1)).foldl (fun off r => off.set r (off.getD r 0 + off.getD (r - 1) 0)) off0

/-- `offsetsAllProcs[f]`, `initDMDA` lines 464-471. (`src/mesh/cartesianmesh.cpp`) -/
def offsetsAllProcs (L : Layout) (f : ℕ) : List ℕ :=
  prefixLoop (shiftLoop (L.UNLocalAllProcs f) L.mpiSize) L.mpiSize

/-- `UPackNLocalAllProcs[r]`, `initDMDA` lines 474-476. (`src/mesh/cartesianmesh.cpp`) -/
def UPackNLocalAllProcs (L : Layout) (r : ℕ) : ℕ :=
  L.UNLocalAllProcs 0 r + L.UNLocalAllProcs 1 r + L.UNLocalAllProcs 2 r

/-- `offsetsPackAllProcs`, `initDMDA` lines 479-483. (`src/mesh/cartesianmesh.cpp`) -/
def offsetsPackAllProcs (L : Layout) : List ℕ :=
  prefixLoop (shiftLoop L.UPackNLocalAllProcs L.mpiSize) L.mpiSize

/-- `UN`, `createVelocityMesh` lines 214 and 335. (`src/mesh/cartesianmesh.cpp`) -/
def UN (L : Layout) : ℕ :=
  (List.range L.dim).foldl (fun acc f => acc + L.n f 0 * L.n f 1 * L.n f 2) 0

/-- `pN`, `createPressureMesh` line 164. (`src/mesh/cartesianmesh.cpp`) -/
def pN (L : Layout) : ℕ := L.n 3 0 * L.n 3 1 * L.n 3 2

/-- Natural indices of the points of field `f` listed in PETSc's global order: rank by rank, and on one rank
in storage order. This is how `DMDAGetAO` builds the application ordering (PETSc `DMDAGetNatural_Private`). (`src/mesh/cartesianmesh.cpp` 549, 570) -/
def aoList (L : Layout) (f : ℕ) : List ℤ :=
  (List.range L.mpiSize).flatMap fun r =>
    (L.box f r).map fun (i, j, k) => (i : ℤ) + j * L.n f 0 + k * (L.n f 1 * L.n f 0)

/-- `AOApplicationToPetsc(ao[f], 1, &idx)` for the AO of a DMDA (PETSc `AOApplicationToPetsc_Basic`):
numbers that are not natural indices (negative or too large) become -1, the others their position in PETSc's
global order. (`src/mesh/cartesianmesh.cpp` 718) -/
def aoApplicationToPetsc (L : Layout) (f : ℕ) (idx : ℤ) : ℤ :=
  if idx ∈ L.aoList f then ((L.aoList f).idxOf idx : ℤ) else -1

/-- `CartesianMesh::getGlobalIndex`, `src/mesh/cartesianmesh.cpp` 709-721. -/
def getGlobalIndex (debug : Bool) (L : Layout) (f : ℕ) (s : Stencil) : Except Error ℤ := do
  let idx ← getNaturalIndexS debug L.toMeshInfo f s
  return L.aoApplicationToPetsc f idx

/-- `std::upper_bound(v.begin(), v.end(), x) - v.begin()` on a sorted array: number of leading elements
that are `<= x`. (`src/mesh/cartesianmesh.cpp` 764) -/
def upperBound (v : List ℕ) (x : ℤ) : ℕ := (v.takeWhile fun a : ℕ => decide ((a : ℤ) ≤ x)).length

/-- `CartesianMesh::getPackedGlobalIndex(f, s, idx)`, `src/mesh/cartesianmesh.cpp` 740-779. -/
def getPackedGlobalIndex (debug : Bool) (L : Layout) (f : ℕ) (s : Stencil) : Except Error ℤ := do
  let unPackedIdx ← L.getGlobalIndex debug f s
  -- 757-761
  if f = 3 ∨ unPackedIdx = -1 then
    return unPackedIdx
  else
    -- 764-766; `p` is an int, so -1 is possible and would index outside the arrays
    let p1 := upperBound (L.offsetsAllProcs f) unPackedIdx
    if p1 = 0 then .error .ub
    else
      let p := p1 - 1
      match L.offsetsPackAllProcs[p]?, (L.offsetsAllProcs f)[p]? with
      | some offPack, some off =>
        -- 769-776
        let idx : ℤ := offPack
        let idx := (List.range f).foldl (fun acc i => acc + (L.UNLocalAllProcs i p : ℤ)) idx
        return idx + (unPackedIdx - off)
      | _, _ => .error .ub

end Layout

end PetIBM
