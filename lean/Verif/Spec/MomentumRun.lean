/-
Total momentum of the flow.
-/
import Verif.Spec.Energy
import Verif.Spec.Ibpm

namespace PetIBM.Spec

variable {K : Type} [Field K]

/-- No side of the domain holds back the flow in direction `f`: the domain is periodic in that direction, and every wall of the other
directions is closed and lets the fluid slip along `f` without friction. A domain that is periodic in all directions has no walls. -/
def FreeAlong (L : Layout) (T : BCTable K) (f : ℕ) : Prop :=
  L.periodic 0 f = true ∧ ∀ loc, loc < L.dim * 2 → L.periodic 0 (loc / 2) = false → Closed T loc ∧ T f loc = (.NEUMANN, 0)

/-- Momentum of the velocity `U` in the direction whose points `e` marks: the sum of the velocities of these points, weighted with their
volumes. -/
def momentum (N : ℕ) (vol e U : ℤ → K) : K := ∑ i ∈ Finset.range N, vol i * e i * U i

end PetIBM.Spec
