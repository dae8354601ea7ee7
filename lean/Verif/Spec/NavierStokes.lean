/-
Runs of the Navier-Stokes solver.
-/
import Verif.Model.NavierStokes
import Verif.Spec.Run

namespace PetIBM.Spec

variable {K : Type} [Field K] [LinearOrder K]

/-- A solver that has been initialised: accepted parameters, the operators and the state `s₀` after `init`, the state `s` and the
files after `ioInitialData`. -/
structure Started (debug : Bool) (L : Layout) (G : Geom K) (axes : ℕ → Axis K) (T : BCTable K) (B : ℕ → Boundary K)
    (P : NSParams K) (flow : Option (FlowNode K)) (ops : NSOps K) (disk : Disk K) (s : NSState K) (disk' : Disk K) : Prop where
  constructed : Constructed debug L G axes T B
  params : ∃ haveAmgX output node, readParams haveAmgX output node flow = .ok P
  init : ∃ s₀, solverInit debug L G P flow B = .ok (ops, s₀) ∧ ioInitialData L P s₀ disk = .ok (s, disk')

/-- `x 0, …, x n` are the states of `n` consecutive steps. -/
def Trajectory (L : Layout) (G : Geom K) (P : NSParams K) (ops : NSOps K) (vSolve pSolve : LinSolve K) (x : ℕ → NSState K) (n : ℕ) : Prop :=
  ∀ k, k < n → advance L G P ops vSolve pSolve (x k) = .ok (x (k + 1))

/-- Weight that a time scheme should give to the explicit term of level `m` in the step from level `k` to `k + 1`. -/
def levelWeight (S : TimeScheme K) (k m : ℕ) : K := S.explicitCoeffs.getD (k - m) 0

/-- The step from level `k` needs no term from before the run: it started from step 0, where there is none, or the schemes use no more terms than
the levels `0, …, k` have. A restart with the method of Adams and Bashforth fails this in its first step only. -/
def Remembers (P : NSParams K) (k : ℕ) : Prop := P.nstart = 0 ∨ P.conv.nExplicit ≤ k + 1 ∧ P.diff.nExplicit ≤ k + 1

/-- The solver returns, if anything, a solution of the system. -/
def Solves (N : ℕ) (solve : LinSolve K) (A : Mat K) : Prop :=
  ∀ guess rhs x, solve A guess rhs = .ok x → ∀ i : ℤ, 0 ≤ i → i < N → Mat.mult N A x i = rhs i

end PetIBM.Spec
