/-
Solvability of the linear systems of the Navier-Stokes solver.
-/
import Verif.Spec.NavierStokes
import Verif.Spec.Operators

namespace PetIBM.Spec

variable {K : Type} [Field K]

/-- Flux out of the domain that the normal wall velocities prescribe: for every non-periodic direction the area of the wall times
the difference of the two prescribed velocities. -/
def boundaryFlux (M : MeshInfo) (G : Geom K) (T : BCTable K) : K :=
  ∑ f ∈ Finset.range M.dim, if M.periodic 0 f then 0 else
    layerSum M 3 f (faceArea G f f) * ((T f (2 * f + 1)).2 - (T f (2 * f)).2)

/-- Every wall prescribes its normal velocity: no NEUMANN and no CONVECTIVE condition for the normal component. -/
def NormalVelocityGiven (M : MeshInfo) (T : BCTable K) : Prop :=
  ∀ f loc, f < M.dim → loc / 2 = f → (T f loc).1 = .DIRICHLET ∨ (T f loc).1 = .PERIODIC

/-- `x` solves the system. -/
def IsSolution (N : ℕ) (A : Mat K) (rhs x : ℤ → K) : Prop := ∀ i : ℤ, 0 ≤ i → i < N → Mat.mult N A x i = rhs i

/-- Orders for which the approximate inverse is definite: the first one; if no periodic direction has less than three cells, also all
odd orders, and all orders if the steps are small enough for explicit diffusion, `dt nu |L i i| < 1/2` with the viscous part of the
implicit matrix, that is `dt A i i < 3/2`. -/
def GoodOrder {K : Type} [Field K] [LinearOrder K] (L : Layout) (P : NSParams K) (A : Mat K) : Prop :=
  P.BN = 1 ∨ (∀ f d, f < L.dim → d < L.dim → L.periodic 0 d = true → 3 ≤ L.n f d) ∧
    (Odd P.BN ∨ 0 < P.dt ∧ 0 ≤ P.nu ∧ ∀ i : ℤ, 0 ≤ i → i < L.UN → P.dt * A i i < 3 / 2)

/-- The solver returns a solution whenever there is one. -/
def Finds (N : ℕ) (solve : LinSolve K) (A : Mat K) : Prop :=
  ∀ guess rhs, (∃ x, IsSolution N A rhs x) → ∃ x, solve A guess rhs = .ok x ∧ IsSolution N A rhs x

/-- A solver that returns some solution if there is one, and an error otherwise. -/
noncomputable def exactSolve (N : ℕ) : LinSolve K := fun A _ rhs =>
  open Classical in if h : ∃ x, IsSolution N A rhs x then .ok h.choose else .error .notANumber

end PetIBM.Spec
