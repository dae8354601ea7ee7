/-
Local vectors with ghost layers (PETSc DMDA local vectors).
-/
import Verif.Model.Boundary

namespace PetIBM

variable {K : Type}

/-- The grid point at position `l` of the local array of field `f` on rank `r`: the inverse of `getLocalIndex`
(`Model/Boundary.lean`), i.e. PETSc's layout of a DMDA local vector with one ghost layer. (`src/mesh/cartesianmesh.cpp` 492-538, the DMDAs) -/
def localSlot (L : Layout) (f r : ℕ) (l : ℤ) : Stencil :=
  let lo (d : ℕ) : ℤ := (L.bg f r d : ℤ) - 1
  let hi (d : ℕ) : ℤ := (L.ed f r d : ℤ) + 1
  let mx := hi 0 - lo 0
  let my := hi 1 - lo 1
  { i := lo 0 + l % mx, j := lo 1 + l / mx % my, k := if L.dim > 2 then lo 2 + l / mx / my else 0, c := 0 }

/-- Coordinate wrapped into the grid in a periodic direction; DMDA boundary types as in `createSingleDMDA`,
`src/mesh/cartesianmesh.cpp` 500-521 (flags `periodic[d][d]`). -/
def wrapCoord (L : Layout) (f d : ℕ) (x : ℤ) : ℤ := if d < L.dim ∧ L.periodic d d then x % L.n f d else x

/-- Source of a slot of a local vector in the global vector. (`src/operators/createconvection.cpp` 216-221, the scatter) -/
def wrapPeriodic (L : Layout) (f : ℕ) (s : Stencil) : Stencil :=
  { i := wrapCoord L f 0 s.i, j := wrapCoord L f 1 s.j, k := wrapCoord L f 2 s.k, c := s.c }

/-- `DMCompositeScatterArray` (e.g. `src/operators/createconvection.cpp` 217) on rank `r` for component `f`: every slot
of the local vector that is a grid point or a periodic image of one (box stencil, `cartesianmesh.cpp` 506, 515)
receives its value; slots beyond a non-periodic boundary (`DM_BOUNDARY_GHOSTED`) keep their content `v`. -/
def scatterLocal (L : Layout) (f r : ℕ) (q : ℤ → K) (v : ℤ → K) : ℤ → K := fun l =>
  let t := wrapPeriodic L f (localSlot L f r l)
  if (0 ≤ t.i ∧ t.i < L.n f 0) ∧ (0 ≤ t.j ∧ t.j < L.n f 1) ∧ (0 ≤ t.k ∧ t.k < L.n f 2) then
    match L.getPackedGlobalIndex false f t with
    | .ok x => q x
    | .error _ => v l
  else v l

/-- Reading `array[k][j][i]` after `DMDAVecGetArrayRead`: defined only inside the ghosted box of the process. (`src/operators/createconvection.cpp` 228-245) -/
def readLocal (L : Layout) (f r : ℕ) (v : ℤ → K) (k j i : ℤ) : Except Error K :=
  match L.getLocalIndex f r ⟨k, j, i, 0⟩ with
  | .ok l => .ok (v l)
  | .error _ => .error .ub

/-- Assignments to the entries of a vector. (`src/operators/createconvection.cpp` 237-245) -/
def vecAssign (y : ℤ → K) (ws : List (ℤ × K)) : ℤ → K := ws.foldl (fun v w => Function.update v w.1 w.2) y

end PetIBM
