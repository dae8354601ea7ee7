/-
Specifications for the interpolation between grid and bodies.
-/
import Verif.Model.Body
import Mathlib.Data.Real.Basic

namespace PetIBM.Spec

/-- The regularised delta functions offered to the user and the radius of their support in cells. -/
inductive Support : String → ℝ → Prop
  | roma : Support "ROMA_ET_AL_1999" (3 / 2)
  | peskin : Support "PESKIN_2002" 2

/-- Cell `I` of the axis holds the position `x`. -/
def InCell {K : Type} [Field K] [LinearOrder K] (a : Axis K) (I : ℕ) (x : K) : Prop :=
  I < a.dL.length ∧ a.min + (a.dL.take I).sum ≤ x ∧ x < a.min + (a.dL.take (I + 1)).sum

/-- The grid is uniform with width `h` around `x`: the cell of `x` and the `w` cells on each side of it, as far as they exist,
have this width. -/
def LocallyUniform {K : Type} [Field K] [LinearOrder K] (a : Axis K) (h : K) (w : ℕ) (x : K) : Prop :=
  ∃ I, InCell a I x ∧ ∀ j v, I ≤ j + w → j ≤ I + w → a.dL[j]? = some v → v = h

/-- `x` is at least `r` away from both ends of the domain. -/
def AwayFromEnds {K : Type} [Field K] [LinearOrder K] (a : Axis K) (r : K) (x : K) : Prop := a.min + r ≤ x ∧ x + r ≤ a.max

/-- Around the point `p` there are `w` velocity points on both sides in every direction: the window of the kernel does not reach over an end
of the grid. -/
def WindowInside {K : Type} [Field K] [LinearOrder K] (L : Layout) (axes : ℕ → Axis K) (w : ℕ) (p : List K) : Prop :=
  ∀ f d, f < L.dim → d < L.dim → ∃ x I, p[d]? = some x ∧ InCell (axes d) I x ∧ w ≤ I ∧ I + w < L.n f d

end PetIBM.Spec
