/-
What the vorticity should be.
-/
import Verif.Spec.Field
import Verif.Spec.Operators
import Verif.Spec.Run
import Verif.Model.Vorticity

namespace PetIBM.Spec

variable {K : Type} [Field K]

/-- Points of component `g` around the vorticity point `s` of component `c`. In the two directions other than `c` the coordinates of `s` count
vertices (vertex 0 is the lower end of the domain), in direction `c` they count cells. Point `x - 1` of a velocity component in its own
direction sits on vertex `x`; in the other direction the points `x - 1` and `x` are the cells on either side of the vertex. -/
inductive Around (c : ℕ) (s : Stencil) : ℕ → Stencil → Prop where
  | firstUpper : Around c s ((c + 1) % 3) (shift s ((c + 1) % 3) (-1))
  | firstLower : Around c s ((c + 1) % 3) (shift (shift s ((c + 1) % 3) (-1)) ((c + 2) % 3) (-1))
  | secondUpper : Around c s ((c + 2) % 3) (shift s ((c + 2) % 3) (-1))
  | secondLower : Around c s ((c + 2) % 3) (shift (shift s ((c + 2) % 3) (-1)) ((c + 1) % 3) (-1))

/-- Component `c` of the curl, by differences across the vorticity point `s`: for `c` = 2, the difference of `v` in x minus the difference
of `u` in y; the other components by cyclic permutation. -/
def curl (G : Geom K) (V : ℕ → Stencil → K) (c : ℕ) (s : Stencil) : K :=
  let a := (c + 1) % 3
  let b := (c + 2) % 3
  (V b (shift s b (-1)) - V b (shift (shift s b (-1)) a (-1))) / (G.coord b a (coordOf s a) - G.coord b a (coordOf s a - 1)) -
    (V a (shift s a (-1)) - V a (shift (shift s a (-1)) b (-1))) / (G.coord a b (coordOf s b) - G.coord a b (coordOf s b - 1))

/-- The component that field `f` of the utility holds. -/
def vorticityComponent (dim f : ℕ) : ℕ := if dim = 2 then 2 else f

/-- The point whose surroundings the utility uses for point `s` of field `f`: `s` itself in 2D and for the z component, in 3D the preceding
cell in x for the x component and the preceding cell in y for the y component (see C70). -/
def usedPoint (dim f : ℕ) (s : Stencil) : Stencil := if dim = 2 ∨ f = 2 then s else shift s f (-1)

/-- Process `r` has a value for point `t` of component `g`: `t` is a grid point or a periodic image of one, or it is the ghost point beyond a
wall next to a point that the process owns. -/
def Available (L : Layout) (r g : ℕ) (t : Stencil) : Prop :=
  (t.c = 0 ∧ ∀ d, d < 3 → 0 ≤ coordOf t d ∧ coordOf t d < L.n g d ∨ (d < L.dim ∧ L.periodic 0 d = true)) ∨
  ∃ u d x, IsUnknown L u ∧ u.rank = r ∧ u.comp = g ∧ d < L.dim ∧ L.periodic 0 d = false ∧
    (x = -1 ∧ coordOf ⟨u.k, u.j, u.i, 0⟩ d = 0 ∨ x = (L.n g d : ℤ) ∧ coordOf ⟨u.k, u.j, u.i, 0⟩ d + 1 = L.n g d) ∧
    t = along ⟨u.k, u.j, u.i, 0⟩ d x

/-- A linear velocity field, at the coordinates of the points. -/
def linearField (G : Geom K) (A : ℕ → ℕ → K) (c : ℕ → K) (g : ℕ) (s : Stencil) : K :=
  c g + A g 0 * G.coord g 0 (coordOf s 0) + A g 1 * G.coord g 1 (coordOf s 1) + A g 2 * G.coord g 2 (coordOf s 2)

/-- Where the velocity points around `s` are, compared with the coordinates saved for field `f` at point `s'`: on the same vertex in
their own direction, in the same cell in the direction of the component, on either side of the vertex in the remaining direction. -/
structure SurroundsVertex [LinearOrder K] (L : Layout) (G : Geom K) (f : ℕ) (s' s : Stencil) (g : ℕ) (t : Stencil) : Prop where
  own : G.coord g g (coordOf t g) = vorticityCoord L.dim G f g (coordOf s' g)
  cell : G.coord g (vorticityComponent L.dim f) (coordOf t (vorticityComponent L.dim f)) =
    vorticityCoord L.dim G f (vorticityComponent L.dim f) (coordOf s' (vorticityComponent L.dim f))
  sides : ∀ e, e < 3 → e ≠ g → e ≠ vorticityComponent L.dim f →
    coordOf t e = coordOf s e ∧ vorticityCoord L.dim G f e (coordOf s' e) < G.coord g e (coordOf t e) ∨
    coordOf t e = coordOf s e - 1 ∧ G.coord g e (coordOf t e) < vorticityCoord L.dim G f e (coordOf s' e)

end PetIBM.Spec
