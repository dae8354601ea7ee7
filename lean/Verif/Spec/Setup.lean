/-
A mesh with its distribution over processes and its geometry, as the mesh constructor leaves them.
-/
import Verif.Spec.Boundary
import Verif.Spec.Mesh

namespace PetIBM.Spec

/-- Consistent mesh object: proper axes, point counts and geometry as computed by the constructor, a consistent
distribution over processes, and periodic directions shared by all components (what `C11_periodic_check` and
`C11_setup_3d` prove of accepted boundary conditions). -/
structure Setup {K : Type} [Field K] [LinearOrder K] (L : Layout) (G : Geom K) (axes : ℕ → Axis K) : Prop where
  layout : LayoutOK L
  axesOK : ∀ d, d < L.dim → AxisOK (axes d)
  geom : GeomOf G L.dim axes L.periodic
  counts : ∀ f d, f < 5 → d < 3 → ∀ A, fieldAxis L.dim axes L.periodic f d = .ok A → L.n f d = A.n
  periodic : ∀ f d, f < L.dim → d < 3 → L.periodic f d = L.periodic 0 d

end PetIBM.Spec
