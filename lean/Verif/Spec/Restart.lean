/-
Continuing a run from a file.
-/
import Verif.Spec.NavierStokes
import Verif.Spec.Files

namespace PetIBM.Spec

variable {K : Type} [Field K] [LinearOrder K]

/-- Two states agree in everything that the following steps should depend on: step, time, velocity, pressure, explicit terms and, on
every process, the ghost points. (The work vectors of the convection operator and the last pressure increment are left out.) -/
structure SameFlow (L : Layout) (s s' : NSState K) : Prop where
  ite : s.ite = s'.ite
  t : s.t = s'.t
  U : s.U = s'.U
  p : s.p = s'.p
  conv : s.conv = s'.conv
  diff : s.diff = s'.diff
  ghosts : ∀ r, r < L.mpiSize → s.B r = s'.B r

/-- No boundary is convective. -/
def NoConvective (L : Layout) (T : BCTable K) : Prop := ∀ f loc, f < L.dim → loc < L.dim * 2 → (T f loc).1 ≠ .CONVECTIVE

/-- The result of the linear solver does not depend on the initial guess. -/
def IgnoresGuess (solve : LinSolve K) : Prop := ∀ A g g' rhs, solve A g rhs = solve A g' rhs

end PetIBM.Spec
