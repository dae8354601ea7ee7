/-
Linear solvers: their configuration files, and what a step solves.
-/
import Verif.Model.LinSolver
import Verif.Spec.Ibpm
import Verif.Spec.Params

namespace PetIBM.Spec

/-- The configuration file of a solver: none if the key is missing or says `None`, an absolute path as it is, another path relative to the directory of the
run. -/
inductive ConfigOf (directory : Option String) : Option String → Option String → Prop
  | missing : ConfigOf directory none none
  | word : ConfigOf directory (some "None") none
  | absolute (c : List Char) : ConfigOf directory (some (String.ofList ('/' :: c))) (some (String.ofList ('/' :: c)))
  | relative (c d : String) : directory = some d → (∀ l, c ≠ String.ofList ('/' :: l)) → c ≠ "None" → ConfigOf directory (some c) (some (d ++ "/" ++ c))

/-- A solver of this kind can be set up: the type is known, and the configuration file, if any, can be read. -/
def Usable (haveAmgX : Bool) (readable : String → Bool) (directory : Option String) (node : SolverNode) (kind : SolverType) : Prop :=
  SolverOf haveAmgX node.type kind ∧ ∃ file, ConfigOf directory node.config file ∧ (kind = .ksp → ∀ c, file = some c → readable c = true)

variable {K : Type}

/-- `r` is the outcome of the solve, and it is a success. -/
def Outcome (be : Backends K) (kind : SolverType) (name : String) (A : Mat K) (x b : ℤ → K) (r : SolveOutcome K) : Prop :=
  match kind with
  | .ksp => r = be.ksp name A x b ∧ 0 ≤ r.reason
  | .amgx => be.amgx name A x b = .ok r

/-- A solver that stops with an error if the iteration diverges. -/
def solverOf (be : Backends K) (kind : SolverType) (name : String) : LinSolve K := fun A x b =>
  match kind with
  | .ksp => if (be.ksp name A x b).reason < 0 then .error .convFailed else .ok (be.ksp name A x b).x
  | .amgx => (be.amgx name A x b).map SolveOutcome.x

variable [Field K] [LinearOrder K]

/-- The two systems of the step from `s` to `s'` have been solved with the outcomes `rv` and `rp`. -/
def FlowSolves (be : Backends K) (kv kp : SolverType) (L : Layout) (G : Geom K) (P : NSParams K) (ops : NSOps K) (s s' : NSState K)
    (rv rp : SolveOutcome K) : Prop :=
  ∃ rhs s₁, assembleRHSVelocity L G P ops { s with t := s.t + P.dt, ite := s.ite + 1 } = .ok (rhs, s₁) ∧
    Outcome be kv "velocity" ops.A s.U rhs rv ∧
    Outcome be kp "poisson" ops.DBNG s.dP (assembleRHSPoisson L ops { s₁ with U := vec L.UN rv.x }) rp ∧ s'.dP = vec ops.pN rp.x

/-- The three systems of a step of the decoupled solver have been solved with the outcomes `rv`, `rf` and `rp`. -/
def BodySolves (be : Backends K) (kv kf kp : SolverType) (L : Layout) (G : Geom K) (P : NSParams K) (ops : NSOps K) (ib : IBOps K) (UB : Option (ℤ → K))
    (s s' : IBState K) (rv rf rp : SolveOutcome K) : Prop :=
  ∃ rhs s₁, assembleRHSVelocity L G P ops { s.ns with t := s.ns.t + P.dt, ite := s.ns.ite + 1 } = .ok (rhs, s₁) ∧
    Outcome be kv "velocity" ops.A s.ns.U (fun i => rhs i + vec L.UN (Mat.mult ib.nF ib.H s.f) i) rv ∧
    Outcome be kf "forces" ib.EBNH s.df (assembleRHSForces L ib UB (vec L.UN rv.x)) rf ∧ s'.df = vec ib.nF rf.x ∧
    Outcome be kp "poisson" ops.DBNG s.ns.dP
      (assembleRHSPoisson L ops { s₁ with U := fun i => vec L.UN rv.x i + vec L.UN (Mat.mult ib.nF ib.BNH s'.df) i }) rp ∧
    s'.ns.dP = vec ops.pN rp.x

/-- A line of the file of the numbers of iterations: step, and for every solver number of iterations and residual, separated by tabs. -/
def reportLine (fmt : K → List Char) (ite : ℤ) (l : List (SolveOutcome K)) : List Char :=
  List.intercalate ['\t'] ((toString ite).toList :: l.flatMap fun r => [(toString r.iters).toList, fmt r.res])

end PetIBM.Spec
