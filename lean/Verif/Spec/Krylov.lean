/-
What conjugate gradients need of a matrix.
-/
import Verif.Model.NavierStokes

namespace PetIBM.Spec

variable {K : Type} [Field K]

/-- The matrix of the unknowns `0 ... N-1` is symmetric. -/
def SymmetricOn (N : ℕ) (M : Mat K) : Prop := ∀ i j : ℤ, 0 ≤ i → i < N → 0 ≤ j → j < N → M i j = M j i

/-- The quadratic form `xᵀ M x`. -/
def quadratic (N : ℕ) (M : Mat K) (x : ℤ → K) : K := ∑ i ∈ Finset.range N, x i * Mat.mult N M x i

/-- All cells of a direction have the same width. -/
def UniformMesh (dim : ℕ) (axes : ℕ → Axis K) : Prop := ∀ d, d < dim → ∃ h, ∀ w ∈ (axes d).dL, w = h

end PetIBM.Spec
