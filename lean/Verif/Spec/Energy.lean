/-
Energy of the flow.
-/
import Verif.Spec.Convection

namespace PetIBM.Spec

variable {K : Type} [Field K]

/-- Sum over all velocity points of `a b`, weighted with the volumes of the points: the work of the force `b` on the velocity `a`. -/
def work (N : ℕ) (vol a b : ℤ → K) : K := ∑ i ∈ Finset.range N, vol i * a i * b i

/-- Twice the kinetic energy of the velocity `a`. -/
def kinetic (N : ℕ) (vol a : ℤ → K) : K := work N vol a a

/-- Nothing flows through any wall. -/
def AllClosed (L : Layout) (T : BCTable K) : Prop := ∀ loc, loc < L.dim * 2 → L.periodic 0 (loc / 2) = false → Closed T loc

/-- The walls do not drive the flow: nothing flows through them, and the fluid sticks to them or slips without friction. -/
def WallsAtRest (L : Layout) (T : BCTable K) : Prop :=
  AllClosed L T ∧ ∀ f loc, f < L.dim → loc < L.dim * 2 → L.periodic 0 (loc / 2) = false → f ≠ loc / 2 →
    ((T f loc).1 = .DIRICHLET ∨ (T f loc).1 = .NEUMANN) ∧ (T f loc).2 = 0

end PetIBM.Spec
