/-
The systems of the coupled solver.
-/
import Verif.Spec.LinSolver

namespace PetIBM.Spec

variable {K : Type} [Field K] [LinearOrder K]

/-- The two systems of a step of the coupled solver have been solved with the outcomes `rv` and `rp`. -/
def CoupledSolves (be : Backends K) (kv kp : SolverType) (L : Layout) (G : Geom K) (P : NSParams K) (counts : List (ℕ × ℕ)) (ops : NSOps K) (s s' : NSState K)
    (rv rp : SolveOutcome K) : Prop :=
  ∃ rhs s₁, assembleRHSVelocity L G P ops { s with t := s.t + P.dt, ite := s.ite + 1 } = .ok (rhs, s₁) ∧
    Outcome be kv "velocity" ops.A s.U rhs rv ∧
    Outcome be kp "poisson" ops.DBNG s.dP (ibpmRHSPoisson L counts ops { s₁ with U := vec L.UN rv.x }) rp ∧ s'.dP = vec ops.pN rp.x

end PetIBM.Spec
