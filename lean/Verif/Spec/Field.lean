/-
Fields on the staggered grid, extended by periodic images and by the ghost equations of the boundaries.
-/
import Verif.Spec.Setup

namespace PetIBM.Spec

/-- `s` with coordinate `d` replaced by `x`. -/
def along (s : Stencil) (d : ℕ) (x : ℤ) : Stencil :=
  if d = 0 then { s with i := x } else if d = 1 then { s with j := x } else { s with k := x }

/-- `s` is a grid point of field `f`. -/
def Inside (M : MeshInfo) (f : ℕ) (s : Stencil) : Prop :=
  (∀ d, d < 3 → 0 ≤ coordOf s d ∧ coordOf s d < M.n f d) ∧ s.c = 0

/-- The values `P` of a field at its grid points are the ones stored in the vector `q`, and one layer outside a
periodic direction they are the values of the periodic images. -/
structure Stored {K : Type} (debug : Bool) (L : Layout) (f : ℕ) (q : ℤ → K) (P : Stencil → K) : Prop where
  inside : ∀ s idx, Inside L.toMeshInfo f s → L.getPackedGlobalIndex debug f s = .ok idx → P s = q idx
  periodic : ∀ (s : Stencil) (d : ℕ) (x : ℤ), d < L.dim → Inside L.toMeshInfo f s → L.periodic 0 d = true → (x = -1 ∨ x = L.n f d) →
    P (along s d x) = P (along s d (x % L.n f d))

/-- `V f s` is velocity component `f` at point `s` of the grid extended by one layer: stored values and periodic images,
and beyond the walls the current ghost equation (coefficient times neighbour plus constant) of the process that
registered the ghost point. -/
structure Extended {K : Type} [Field K] (debug : Bool) (L : Layout) (B : ℕ → Boundary K) (q : ℤ → K)
    (V : ℕ → Stencil → K) : Prop where
  stored : ∀ f, f < L.dim → Stored debug L f q (V f)
  ghost : ∀ r f loc s b p, r < L.mpiSize → Point (B r) f loc s b p → V f s = p.a0 * V f p.targetStencil + p.a1

/-- `V f s` is velocity component `f` at point `s` as the explicit terms should see it: stored values at the grid points,
the current value of the ghost points beyond the walls, everything (also the ghost points) repeated in the periodic
directions. -/
structure Filled {K : Type} [Field K] (debug : Bool) (L : Layout) (B : ℕ → Boundary K) (q : ℤ → K)
    (V : ℕ → Stencil → K) : Prop where
  inside : ∀ f s idx, f < L.dim → Inside L.toMeshInfo f s → L.getPackedGlobalIndex debug f s = .ok idx → V f s = q idx
  periodic : ∀ f s d, f < L.dim → d < L.dim → L.periodic 0 d = true → V f s = V f (along s d (coordOf s d % L.n f d))
  ghost : ∀ r f loc s b p, r < L.mpiSize → Point (B r) f loc s b p → V f s = p.value

/-- The boundary conditions agree with the periodic directions of the mesh. -/
def TableOK {K : Type} (L : Layout) (T : BCTable K) : Prop :=
  ∀ f loc, f < L.dim → loc < L.dim * 2 → ((T f loc).1 = .PERIODIC ↔ L.periodic 0 (loc / 2) = true)

end PetIBM.Spec
