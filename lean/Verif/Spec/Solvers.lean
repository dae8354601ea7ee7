/-
Linear solvers that solve to a tolerance.
-/
import Verif.Spec.NavierStokes

namespace PetIBM.Spec

variable {K : Type} [Field K] [LinearOrder K]

/-- The solver returns, if anything, a vector whose residual is at most `ε` in every component. -/
def SolvesWithin (N : ℕ) (solve : LinSolve K) (A : Mat K) (ε : K) : Prop :=
  ∀ guess rhs x, solve A guess rhs = .ok x → ∀ i : ℤ, 0 ≤ i → i < N → |Mat.mult N A x i - rhs i| ≤ ε

/-- Two states of the same flow: the velocities, ghost points, explicit terms and times are the same, the pressures differ by a constant. -/
structure EqualFlow (N : ℕ) (s t : NSState K) : Prop where
  vel : t.U = s.U
  pres : ∃ c, ∀ i : ℤ, 0 ≤ i → i < N → t.p i = s.p i + c
  conv : t.conv = s.conv
  diff : t.diff = s.diff
  ghosts : t.B = s.B
  time : t.t = s.t ∧ t.ite = s.ite

end PetIBM.Spec
