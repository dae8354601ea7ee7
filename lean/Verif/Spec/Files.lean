/-
What the file of a step should contain.
-/
import Verif.Model.NavierStokes

namespace PetIBM.Spec

variable {K : Type} [Field K] [LinearOrder K]

/-- A data set holds the values of a field of `n 0 × n 1 × n 2` points, the first index running fastest. -/
def FieldIn (L : Layout) (f : ℕ) (q : ℤ → K) (data : Option (List K)) : Prop :=
  ∃ v : List K, data = some v ∧ v.length = L.n f 0 * L.n f 1 * L.n f 2 ∧
    ∀ (i j k : ℕ) (idx : ℤ), i < L.n f 0 → j < L.n f 1 → k < L.n f 2 → L.getPackedGlobalIndex false f ⟨k, j, i, 0⟩ = .ok idx →
      v[(k * L.n f 1 + j) * L.n f 0 + i]? = some (q idx)

/-- The file holds velocity, pressure and time of a state. -/
structure SolutionIn (L : Layout) (file : H5File K) (s : NSState K) : Prop where
  velocity : ∀ f name, f < L.dim → ["/u", "/v", "/w"][f]? = some name → FieldIn L f s.U (file.data name)
  pressure : FieldIn L 3 s.p (file.data "/p")
  time : file.time = some s.t

/-- The data sets of a group hold the vectors of a list. -/
def VectorsIn (N : ℕ) (file : H5File K) (group : String) (l : List (ℤ → K)) : Prop :=
  ∀ (i : ℕ) (z : ℤ → K), l[i]? = some z → ∃ v : List K, file.data (group ++ toString i) = some v ∧ v.length = N ∧ ∀ m : ℕ, m < N → v[m]? = some (z m)

/-- The file holds the explicit terms of a state. -/
structure RestartIn (L : Layout) (file : H5File K) (s : NSState K) : Prop where
  convection : VectorsIn L.UN file "/convection/" s.conv
  diffusion : VectorsIn L.UN file "/diffusion/" s.diff

end PetIBM.Spec
