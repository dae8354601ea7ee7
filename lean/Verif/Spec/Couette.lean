/-
Plane Couette flow.
-/
import Verif.Spec.Steady

namespace PetIBM.Spec

variable {K : Type} [Field K]

/-- Position of side `loc` of the domain. -/
def wallAt (axes : ℕ → Axis K) (loc : ℕ) : K := if loc % 2 = 0 then (axes (loc / 2)).min else (axes (loc / 2)).max

/-- Velocity along `g` that grows linearly with the position along `e`, no velocity along the other axes. -/
def shearOf (G : Geom K) (g e : ℕ) (a b : K) : ℕ → Stencil → K := fun f s => if f = g then a + b * G.coord g e (coordOf s e) else 0

/-- The boundary conditions allow the flow along `g` with velocity `a + b * y`, where `y` is the position along `e`: the sides of direction `e`
move with it or give its slope, and nothing else holds it back. -/
structure AllowsShear (L : Layout) (T : BCTable K) (axes : ℕ → Axis K) (g e : ℕ) (a b : K) : Prop where
  comp : g < L.dim
  dir : e < L.dim
  across : g ≠ e
  walled : L.periodic 0 e = false
  walls : ∀ loc, loc / 2 = e → T g loc = (.DIRICHLET, a + b * wallAt axes loc) ∨ T g loc = (.NEUMANN, b)
  along : ∀ loc, loc < L.dim * 2 → loc / 2 ≠ e → L.periodic 0 (loc / 2) = false → T g loc = (.NEUMANN, 0) ∨ (T g loc).1 = .CONVECTIVE
  others : ∀ f loc, f < L.dim → f ≠ g → loc < L.dim * 2 → L.periodic 0 (loc / 2) = false →
    T f loc = (.DIRICHLET, 0) ∨ T f loc = (.NEUMANN, 0) ∨ (T f loc).1 = .CONVECTIVE

end PetIBM.Spec
