/-
The mesh object that the constructor leaves behind, all processes together.
-/
import Verif.Model.Boundary

namespace PetIBM

variable {K : Type} [Field K]

/-- `n`, `periodic` and the distribution of the grid lines after `CartesianMesh::init`, `src/mesh/cartesianmesh.cpp`
44-132 (counts from `createPressureMesh`, `createVelocityMesh`; distribution by PETSc without explicit ranges,
`createSingleDMDA` 492-538). A direction on which the constructor stops has no points. -/
def meshLayout (dim : ℕ) (axes : ℕ → Axis K) (periodic : ℕ → ℕ → Bool) (nProc : ℕ → ℕ) : Layout :=
  let n (f d : ℕ) : ℕ := match fieldAxis dim axes periodic f d with
    | .ok A => A.n
    | .error _ => 0
  { dim := dim, n := n, periodic := periodic, nProc := nProc, own := fun f d => dmdaDefault (n f d) (nProc d) }

/-- `coord` and `dL` after `CartesianMesh::init`; 0 outside of the arrays. (`src/mesh/cartesianmesh.cpp` 69-132) -/
def meshGeom (dim : ℕ) (axes : ℕ → Axis K) (periodic : ℕ → ℕ → Bool) : Geom K where
  coord f d i := match fieldAxis dim axes periodic f d with
    | .ok A => (match A.coord i with | .ok x => x | .error _ => 0)
    | .error _ => 0
  dL f d i := match fieldAxis dim axes periodic f d with
    | .ok A => (match A.dL i with | .ok x => x | .error _ => 0)
    | .error _ => 0

end PetIBM
