/-
When a process has the wall values that the convective term needs.
-/
import Verif.Spec.Field
import Verif.Spec.Operators

namespace PetIBM.Spec

/-- Process `r` owns, in direction `f`, the lines of point `s` and of the next point, for every other component whose
wall point `s` touches. -/
def SeesWalls (L : Layout) (r f : ℕ) (s : Stencil) : Prop :=
  ∀ d, d < L.dim → d ≠ f → L.periodic 0 d = false → (coordOf s d = 0 ∨ coordOf s d + 1 = L.n f d) →
    ∀ y : ℤ, (y = 0 ∨ y = 1) → ∃ u : Unknown, IsUnknown L u ∧ u.rank = r ∧ u.comp = d ∧
      coordOf ⟨u.k, u.j, u.i, 0⟩ f = coordOf s f + y

/-- Process `r` has the value of component `g` at `t`: `t` is a grid point or a periodic image of one, or it is the ghost point
beyond a wall next to a point that the process owns. -/
def Sees (L : Layout) (r g : ℕ) (t : Stencil) : Prop :=
  (t.c = 0 ∧ ∃ s, Inside L.toMeshInfo g s ∧ ∀ d, d < 3 → coordOf t d = coordOf s d ∨
    (d < L.dim ∧ L.periodic 0 d = true ∧ (L.n g d : ℤ) ∣ coordOf t d - coordOf s d)) ∨
  ∃ u : Unknown, IsUnknown L u ∧ u.rank = r ∧ u.comp = g ∧ ∃ loc, loc < L.dim * 2 ∧ L.periodic 0 (loc / 2) = false ∧
    OnFace L.toMeshInfo g loc t ∧ AcrossFace L.toMeshInfo g loc t ⟨u.k, u.j, u.i, 0⟩

open Classical in
/-- The field as process `r` has it: zero where it does not have the value. -/
noncomputable def seenBy {K : Type} [Field K] (L : Layout) (r : ℕ) (V : ℕ → Stencil → K) : ℕ → Stencil → K := fun g t =>
  if Sees L r g t then V g t else 0

/-- Nothing flows through the wall at `loc`: its normal velocity is given as zero. -/
def Closed {K : Type} [Field K] (T : BCTable K) (loc : ℕ) : Prop := T (loc / 2) loc = (.DIRICHLET, 0)

/-- Every wall of another direction that point `s` touches is closed, or process `r` owns, in direction `f`, the lines of `s` and of
the next point for the component normal to it. -/
def KnowsWalls {K : Type} [Field K] (L : Layout) (T : BCTable K) (r f : ℕ) (s : Stencil) : Prop :=
  ∀ loc, loc < L.dim * 2 → loc / 2 ≠ f → L.periodic 0 (loc / 2) = false →
    coordOf s (loc / 2) = (if loc % 2 = 0 then 0 else (L.n f (loc / 2) : ℤ) - 1) →
    Closed T loc ∨ ∀ y : ℤ, (y = 0 ∨ y = 1) → ∃ u : Unknown, IsUnknown L u ∧ u.rank = r ∧ u.comp = loc / 2 ∧
      coordOf ⟨u.k, u.j, u.i, 0⟩ f = coordOf s f + y

/-- Volume of a point. -/
def volume {K : Type} [Field K] (G : Geom K) (f : ℕ) (s : Stencil) : K :=
  G.dL f 0 (coordOf s 0) * G.dL f 1 (coordOf s 1) * G.dL f 2 (coordOf s 2)

end PetIBM.Spec
