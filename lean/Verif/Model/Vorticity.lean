/-
The vorticity utility (`applications/vorticity/main.cpp`).
-/
import Verif.Model.Solution

namespace PetIBM

variable {K : Type} [Field K]

/-- `n[f][d]` of `initVorticityMesh`, `applications/vorticity/main.cpp` 386-388 and 430-441. In 2D the only field, number 0, is `wz`; there the
same numbers stand for all `f`. -/
def vorticityCount (M : MeshInfo) (f d : ℕ) : ℕ :=
  if M.dim = 2 then
    if d = 0 then M.n 4 0 else if d = 1 then M.n 4 1 else M.n 3 2
  else if f = 0 then
    if d = 0 then M.n 3 0 else if d = 1 then M.n 4 1 else M.n 4 2
  else if f = 1 then
    if d = 0 then M.n 4 0 else if d = 1 then M.n 3 1 else M.n 4 2
  else
    if d = 0 then M.n 4 0 else if d = 1 then M.n 4 1 else M.n 3 2

/-- `coord[f][d][i]` of `initVorticityMesh`, lines 394-396 and 447-457. (`applications/vorticity/main.cpp`) -/
def vorticityCoord (dim : ℕ) (G : Geom K) (f d : ℕ) (i : ℤ) : K :=
  if dim = 2 then
    if d = 0 then G.coord 4 0 i else if d = 1 then G.coord 4 1 i else G.coord 3 2 i
  else if f = 0 then
    if d = 0 then G.coord 3 0 i else if d = 1 then G.coord 4 1 i else G.coord 4 2 i
  else if f = 1 then
    if d = 0 then G.coord 4 0 i else if d = 1 then G.coord 3 1 i else G.coord 4 2 i
  else
    if d = 0 then G.coord 4 0 i else if d = 1 then G.coord 4 1 i else G.coord 3 2 i

/-- Number of vorticity fields and their names, lines 399-402 and 460-467. (`applications/vorticity/main.cpp`) -/
def vorticityNames (dim : ℕ) : List String := if dim = 2 then ["wz"] else ["wx", "wy", "wz"]

/-- The DMDAs `wDMs`, lines 409-413 and 475-481: the process grid of the mesh, no explicit ranges. (`applications/vorticity/main.cpp`) -/
def vorticityLayout (L : Layout) : Layout where
  dim := L.dim
  n := vorticityCount L.toMeshInfo
  periodic := fun _ _ => false
  nProc := L.nProc
  own := fun f d => dmdaDefault (vorticityCount L.toMeshInfo f d) (L.nProc d)

/-- The local velocity vectors of rank `r`, lines 203-213 and 281-290: new vectors (zero), scatter, ghost values. (`applications/vorticity/main.cpp`) -/
def vorticityLocal (L : Layout) (B : ℕ → Boundary K) (q : ℤ → K) (r : ℕ) : ℕ → ℤ → K :=
  (B r).copyValues2LocalVecs fun f => scatterLocal L f r q (fun _ => 0)

/-- `mesh->coord[f][d][i]` of a velocity component: one ghost entry on either side (`C08_ghosts_and_order`). (`applications/vorticity/main.cpp` 230-234) -/
def readCoord (L : Layout) (G : Geom K) (f d : ℕ) (i : ℤ) : Except Error K :=
  if -1 ≤ i ∧ i ≤ L.n f d then .ok (G.coord f d i) else .error .ub

/-- `uLocalArrys[f][k][j][i]` (`uLocalArrys[f][j][i]` in 2D, with `k = 0` here). (`applications/vorticity/main.cpp` 203-213) -/
abbrev VelocityArray (K : Type) := ℕ → ℤ → ℤ → ℤ → Except Error K

/-- `mesh->coord[f][d][i]`. (`applications/vorticity/main.cpp` 230-234) -/
abbrev CoordArray (K : Type) := ℕ → ℕ → ℤ → Except Error K

/-- Loop body of `calculateVorticity2D`, lines 230-234. (`applications/vorticity/main.cpp`) -/
def vorticityZ2 (coord : CoordArray K) (u : VelocityArray K) (i j : ℤ) : Except Error K := do
  return ((← u 1 0 (j - 1) i) - (← u 1 0 (j - 1) (i - 1))) / ((← coord 1 0 i) - (← coord 1 0 (i - 1))) -
    ((← u 0 0 j (i - 1)) - (← u 0 0 (j - 1) (i - 1))) / ((← coord 0 1 j) - (← coord 0 1 (j - 1)))

/-- Loop body for the x component in `calculateVorticity3D`, lines 308-314. (`applications/vorticity/main.cpp`) -/
def vorticityX3 (coord : CoordArray K) (u : VelocityArray K) (i j k : ℤ) : Except Error K := do
  return ((← u 2 (k - 1) j (i - 1)) - (← u 2 (k - 1) (j - 1) (i - 1))) / ((← coord 2 1 j) - (← coord 2 1 (j - 1))) -
    ((← u 1 k (j - 1) (i - 1)) - (← u 1 (k - 1) (j - 1) (i - 1))) / ((← coord 1 2 k) - (← coord 1 2 (k - 1)))

/-- Loop body for the y component, lines 328-334. (`applications/vorticity/main.cpp`) -/
def vorticityY3 (coord : CoordArray K) (u : VelocityArray K) (i j k : ℤ) : Except Error K := do
  return ((← u 0 k (j - 1) (i - 1)) - (← u 0 (k - 1) (j - 1) (i - 1))) / ((← coord 0 2 k) - (← coord 0 2 (k - 1))) -
    ((← u 2 (k - 1) (j - 1) i) - (← u 2 (k - 1) (j - 1) (i - 1))) / ((← coord 2 0 i) - (← coord 2 0 (i - 1)))

/-- Loop body for the z component, lines 348-354. (`applications/vorticity/main.cpp`) -/
def vorticityZ3 (coord : CoordArray K) (u : VelocityArray K) (i j k : ℤ) : Except Error K := do
  return ((← u 1 k (j - 1) i) - (← u 1 k (j - 1) (i - 1))) / ((← coord 1 0 i) - (← coord 1 0 (i - 1))) -
    ((← u 0 k j (i - 1)) - (← u 0 k (j - 1) (i - 1))) / ((← coord 0 1 j) - (← coord 0 1 (j - 1)))

/-- Loop body for field `f` of the vorticity, by dimension (`main` 144-153). (`applications/vorticity/main.cpp`) -/
def vorticityKernel (dim : ℕ) (coord : CoordArray K) (u : VelocityArray K) (f : ℕ) (i j k : ℤ) : Except Error K :=
  if dim = 2 then
    match f with
    | 0 => vorticityZ2 coord u i j
    | _ => .error .ub
  else
    match f with
    | 0 => vorticityX3 coord u i j k
    | 1 => vorticityY3 coord u i j k
    | 2 => vorticityZ3 coord u i j k
    | _ => .error .ub

/-- The assignments `wArray[k][j][i] = ...` of field `f` on all ranks, lines 185-257 and 259-371. (`applications/vorticity/main.cpp`) -/
def vorticityAssign (L : Layout) (G : Geom K) (B : ℕ → Boundary K) (q : ℤ → K) (f : ℕ) : Except Error (List ((ℕ × ℕ × ℕ) × K)) := do
  let a ← (List.range L.mpiSize).mapM fun r => ((vorticityLayout L).box f r).mapM fun p => do
    let x ← vorticityKernel L.dim (readCoord L G) (fun g => readLocal L g r (vorticityLocal L B q r g)) f p.1 p.2.1 p.2.2
    return (p, x)
  return a.flatMap id

/-- Vector `w[f]` after `calculateVorticity2D`/`calculateVorticity3D`; `w` is its content before (the vectors are reused for all time steps).
Simplification: the entries are addressed by their grid points; PETSc's order of the entries is only used by `VecView`, which writes vectors
of a DMDA in natural order. (`applications/vorticity/main.cpp` 185-371) -/
def calculateVorticity (L : Layout) (G : Geom K) (B : ℕ → Boundary K) (q : ℤ → K) (f : ℕ) (w : ℕ × ℕ × ℕ → K) :
    Except Error (ℕ × ℕ × ℕ → K) := do
  return (← vorticityAssign L G B q f).foldl (fun v a => Function.update v a.1 a.2) w

/-- The vectors of all fields in the order of the file. (`applications/vorticity/main.cpp` 161-163) -/
def vorticityVecs (L : Layout) (G : Geom K) (B : ℕ → Boundary K) (q : ℤ → K) (w : ℕ → ℕ × ℕ × ℕ → K) : Except Error (List (List K)) :=
  (List.range (vorticityNames L.dim).length).mapM fun f => do
    let v ← calculateVorticity L G B q f (w f)
    return (gridList (vorticityLayout L).toMeshInfo f).map v

/-- One pass of the loop in `main`, lines 134-159: read the solution, set the ghost points from it, compute and append the vorticity. (`applications/vorticity/main.cpp`) -/
def vorticityStep (L : Layout) (G : Geom K) (B : ℕ → Boundary K) (U p : ℤ → K) (w : ℕ → ℕ × ℕ × ℕ → K) (disk : Disk K) (path : String) :
    Except Error (Disk K) := do
  let (U, _) ← solutionRead L U p disk path
  let vecs ← vorticityVecs L G (fun r => (B r).setGhostICs U) U w
  return writeHDF5Vecs disk path "/" (vorticityNames L.dim) vecs .append

end PetIBM
