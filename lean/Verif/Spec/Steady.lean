/-
Steady flows of the discretised equations.
-/
import Verif.Spec.NavierStokes
import Verif.Spec.Convection
import Verif.Spec.Boundary

namespace PetIBM.Spec

variable {K : Type} [Field K]

/-- No mass is gained or lost in any cell. -/
def Solenoidal (L : Layout) (G : Geom K) (V : ℕ → Stencil → K) : Prop := ∀ c, Inside L.toMeshInfo 3 c → netFlux L.dim G c V = 0

/-- Sum of the second differences in all directions. -/
def laplace (dim : ℕ) (G : Geom K) (f : ℕ) (s : Stencil) (v : Stencil → K) : K := ∑ d ∈ Finset.range dim, secondDifference G f d s v

/-- Difference of the pressures on both sides of a velocity point over their distance. -/
def pressureSlope (L : Layout) (G : Geom K) (axes : ℕ → Axis K) (p : Stencil → K) (f : ℕ) (s : Stencil) : K :=
  (p (shift s f 1) - p s) / pressureGap L.toMeshInfo G axes f (coordOf s f)

/-- The momentum is balanced at every velocity point: convective term and pressure gradient equal the viscous term. The convective term is that of
the field as the process of the point has it. -/
def Balanced (L : Layout) (G : Geom K) (axes : ℕ → Axis K) (nu : K) (V : ℕ → Stencil → K) (p : Stencil → K) : Prop :=
  ∀ u, IsUnknown L u → convective L.dim G (seenBy L u.rank V) u.comp ⟨u.k, u.j, u.i, 0⟩ + pressureSlope L G axes p u.comp ⟨u.k, u.j, u.i, 0⟩ =
    nu * laplace L.dim G u.comp ⟨u.k, u.j, u.i, 0⟩ (V u.comp)

/-- Nothing is convected at any velocity point. -/
def NoConvection (L : Layout) (G : Geom K) (V : ℕ → Stencil → K) : Prop :=
  ∀ u, IsUnknown L u → convective L.dim G (seenBy L u.rank V) u.comp ⟨u.k, u.j, u.i, 0⟩ = 0

/-- Nothing diffuses at any velocity point. -/
def NoDiffusion (L : Layout) (G : Geom K) (V : ℕ → Stencil → K) : Prop :=
  ∀ u, IsUnknown L u → laplace L.dim G u.comp ⟨u.k, u.j, u.i, 0⟩ (V u.comp) = 0

/-- The field `V` has the stored velocities at the grid points, is periodic, and meets the boundary conditions at rest: a given velocity is the
boundary value, a given derivative is the difference to the neighbour, and at convective boundaries nothing changes from the neighbour. -/
structure Meets (debug : Bool) (L : Layout) (G : Geom K) (T : BCTable K) (q : ℤ → K) (V : ℕ → Stencil → K) : Prop where
  inside : ∀ f s idx, f < L.dim → Inside L.toMeshInfo f s → L.getPackedGlobalIndex debug f s = .ok idx → V f s = q idx
  periodic : ∀ f s d, f < L.dim → d < L.dim → L.periodic 0 d = true → V f s = V f (along s d (coordOf s d % L.n f d))
  dirichlet : ∀ f loc s t, f < L.dim → loc < L.dim * 2 → (T f loc).1 = .DIRICHLET → OnFace L.toMeshInfo f loc s →
    AcrossFace L.toMeshInfo f loc s t → boundaryValue loc f (V f s) (V f t) = (T f loc).2
  neumann : ∀ f loc s t, f < L.dim → loc < L.dim * 2 → (T f loc).1 = .NEUMANN → OnFace L.toMeshInfo f loc s →
    AcrossFace L.toMeshInfo f loc s t → V f s - V f t = (T f loc).2 * signedDistance G f loc s t
  convective : ∀ f loc s t, f < L.dim → loc < L.dim * 2 → (T f loc).1 = .CONVECTIVE → OnFace L.toMeshInfo f loc s →
    AcrossFace L.toMeshInfo f loc s t → V f s = V f t

/-- The boundary conditions are met by the uniform velocity `c`: the walls move with it, or they only ask for a zero gradient. -/
def CarriedBy (L : Layout) (T : BCTable K) (c : ℕ → K) : Prop :=
  ∀ f loc, f < L.dim → loc < L.dim * 2 → L.periodic 0 (loc / 2) = false →
    T f loc = (.DIRICHLET, c f) ∨ T f loc = (.NEUMANN, 0) ∨ (T f loc).1 = .CONVECTIVE

end PetIBM.Spec
