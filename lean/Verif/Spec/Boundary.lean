/-
Specifications for ghost points and boundary conditions.
-/
import Verif.Model.Boundary
import Verif.Spec.Index

namespace PetIBM.Spec

/-- Coordinate `d` of a stencil (0: i, 1: j, 2: k). -/
def coordOf (s : Stencil) (d : ℕ) : ℤ := if d = 0 then s.i else if d = 1 then s.j else s.k

/-- `s` is one layer outside face `loc` of the grid of field `f` (0: -x, 1: +x, 2: -y, ...) and inside the grid in the
other directions. -/
def OnFace (M : MeshInfo) (f loc : ℕ) (s : Stencil) : Prop :=
  coordOf s (loc / 2) = (if loc % 2 = 0 then -1 else (M.n f (loc / 2) : ℤ)) ∧
  (∀ d, d < 3 → d ≠ loc / 2 → 0 ≤ coordOf s d ∧ coordOf s d < M.n f d) ∧ s.c = 0

/-- `t` is the grid point next to the ghost point `s` across face `loc`. -/
def AcrossFace (M : MeshInfo) (f loc : ℕ) (s t : Stencil) : Prop :=
  coordOf t (loc / 2) = (if loc % 2 = 0 then 0 else (M.n f (loc / 2) : ℤ) - 1) ∧
  (∀ d, d < 3 → d ≠ loc / 2 → coordOf t d = coordOf s d) ∧ t.c = 0

/-- Product of the widths of the point in the two directions other than `d`. -/
def faceArea {K : Type} [Field K] (G : Geom K) (f d : ℕ) (s : Stencil) : K :=
  ((List.range 3).filter (· ≠ d)).foldr (fun e acc => G.dL f e (coordOf s e) * acc) 1

/-- Signed distance from the neighbour to the ghost point, along the axis of the face. -/
def signedDistance {K : Type} [Field K] (G : Geom K) (f loc : ℕ) (s t : Stencil) : K :=
  G.coord f (loc / 2) (coordOf s (loc / 2)) - G.coord f (loc / 2) (coordOf t (loc / 2))

/-- The value on the boundary implied by a ghost value and its neighbour: the ghost point itself lies on the boundary for
the normal component, the boundary is half way for the others. -/
def boundaryValue {K : Type} [Field K] (loc field : ℕ) (ghost neighbour : K) : K :=
  if loc / 2 = field then ghost else (ghost + neighbour) / 2

/-- The last call of a history that refreshed the ghost values was the last call altogether, with velocity `u`. -/
def JustRefreshed {K : Type} (h : List (Boundary.Op K)) (u : ℤ → K) : Prop :=
  ∃ h', h = h' ++ [.setGhostICs u] ∨ h = h' ++ [.updateGhostValues u]

/-- The history begins with the initialisation of the ghost points. -/
def Initialised {K : Type} (h : List (Boundary.Op K)) : Prop := ∃ u h', h = .setGhostICs u :: h'

/-- `p` is ghost point `s` of the boundary at `loc` for component `f` in a boundary object `B`. -/
def Point {K : Type} (B : Boundary K) (f loc : ℕ) (s : Stencil) (b : SingleBoundary K) (p : GhostPointInfo K) : Prop :=
  ∃ l, B[f]? = some l ∧ l[loc]? = some b ∧ b.points.find s = some p

/-- The geometry holds the values that the mesh constructor computes, wherever it computes one. -/
def GeomOf {K : Type} [Field K] (G : Geom K) (dim : ℕ) (axes : ℕ → Axis K) (periodic : ℕ → ℕ → Bool) : Prop :=
  ∀ f d, f < 5 → d < 3 → ∀ A, fieldAxis dim axes periodic f d = .ok A →
    (∀ i x, A.coord i = .ok x → G.coord f d i = x) ∧ ∀ i x, A.dL i = .ok x → G.dL f d i = x

end PetIBM.Spec
