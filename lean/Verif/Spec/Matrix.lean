/-
PETSc matrices as Mathlib matrices.
-/
import Verif.Model.Matrix
import Mathlib.Data.Matrix.Basic

namespace PetIBM

variable {K : Type}

/-- The first `N` rows and `M` columns as a Mathlib matrix. -/
def Mat.toM (N M : ℕ) (A : Mat K) : Matrix (Fin N) (Fin M) K := fun i j => A i j

end PetIBM
