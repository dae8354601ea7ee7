/-
PETSc's default distribution of grid lines.
-/
import Verif.Spec.Index

namespace PetIBM.Spec

/-- Every existing field is distributed the way PETSc does it when no explicit distribution is passed
(`src/mesh/cartesianmesh.cpp` 500-521 pass null pointers), and no process is without grid lines (otherwise `DMSetUp`
fails with "Partition in x direction is too fine"). -/
def Partitioned (L : Layout) : Prop :=
  ∀ f d, f < L.dim ∨ f = 3 → d < 3 →
    L.own f d = dmdaDefault (L.n f d) (L.nProc d) ∧ 0 < L.nProc d ∧ L.nProc d ≤ L.n f d

end PetIBM.Spec
