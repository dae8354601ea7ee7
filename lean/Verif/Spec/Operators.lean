/-
What the discrete operators are meant to compute.
-/
import Verif.Spec.Field
import Mathlib.Algebra.BigOperators.Group.Finset.Basic

namespace PetIBM.Spec

variable {K : Type} [Field K]

/-- Neighbour of `s` at distance `x` in direction `d`. -/
def shift (s : Stencil) (d : ℕ) (x : ℤ) : Stencil := along s d (coordOf s d + x)

/-- Three-point second difference in direction `d` on a non-uniform grid: difference of the one-sided slopes divided by
the width of the point. -/
def secondDifference (G : Geom K) (f d : ℕ) (s : Stencil) (u : Stencil → K) : K :=
  ((u (shift s d 1) - u s) / (G.coord f d (coordOf s d + 1) - G.coord f d (coordOf s d)) -
    (u s - u (shift s d (-1))) / (G.coord f d (coordOf s d) - G.coord f d (coordOf s d - 1))) / G.dL f d (coordOf s d)

/-- Distance from pressure point `i` to the next one in direction `f`; behind the last one comes the image of the
first one. -/
def pressureGap (M : MeshInfo) (G : Geom K) (axes : ℕ → Axis K) (f : ℕ) (i : ℤ) : K :=
  if i + 1 < M.n 3 f then G.coord 3 f (i + 1) - G.coord 3 f i
  else G.coord 3 f 0 + ((axes f).max - (axes f).min) - G.coord 3 f i

/-- Flux out of cell `s` minus flux into it: velocity component `f` sits on the face between a cell and the next one in
direction `f` and has the index of the lower cell. -/
def netFlux (dim : ℕ) (G : Geom K) (s : Stencil) (V : ℕ → Stencil → K) : K :=
  ∑ f ∈ Finset.range dim, (faceArea G f f s * V f s - faceArea G f f s * V f (shift s f (-1)))

/-- Momentum of component `f` carried through the face between `s` and its next neighbour in direction `d`: interpolated
velocity `d` times interpolated velocity `f`. -/
def momentumFlux (V : ℕ → Stencil → K) (f d : ℕ) (s : Stencil) : K :=
  ((V d s + V d (shift s f 1)) / 2) * ((V f s + V f (shift s d 1)) / 2)

/-- Convective term of component `f` at `s`: difference of the momentum fluxes through opposite faces over the width. -/
def convective (dim : ℕ) (G : Geom K) (V : ℕ → Stencil → K) (f : ℕ) (s : Stencil) : K :=
  ∑ d ∈ Finset.range dim, (momentumFlux V f d s - momentumFlux V f d (shift s d (-1))) / G.dL f d (coordOf s d)

/-- Sum over all points of the grid of field `f`. -/
def gridSum (M : MeshInfo) (f : ℕ) (g : Stencil → K) : K :=
  ∑ k ∈ Finset.range (M.n f 2), ∑ j ∈ Finset.range (M.n f 1), ∑ i ∈ Finset.range (M.n f 0), g ⟨k, j, i, 0⟩

/-- Sum over the points of the grid of field `f` in the first layer of direction `d`. -/
def layerSum (M : MeshInfo) (f d : ℕ) (g : Stencil → K) : K :=
  gridSum M f fun s => if coordOf s d = 0 then g s else 0

end PetIBM.Spec
