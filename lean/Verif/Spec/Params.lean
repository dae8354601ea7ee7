/-
Specification of the parameters of a simulation.
-/
import Verif.Model.NavierStokes

namespace PetIBM.Spec

variable {K : Type} [Field K] [LinearOrder K]

/-- The key has the value `v`, or it is absent and `v` is the default. -/
def ValueOr {α : Type} (key : Option α) (default v : α) : Prop := key = some v ∨ (key = none ∧ v = default)

/-- The weights of the implicit term and of the explicit terms, the latest first. -/
inductive SchemeOf : String → TimeScheme K → Prop
  | explicitEuler : SchemeOf "EULER_EXPLICIT" ⟨0, 1, [1]⟩
  | implicitEuler : SchemeOf "EULER_IMPLICIT" ⟨1, 0, []⟩
  | adamsBashforth : SchemeOf "ADAMS_BASHFORTH_2" ⟨0, 2, [3 / 2, -(1 / 2)]⟩
  | crankNicolson : SchemeOf "CRANK_NICOLSON" ⟨1 / 2, 1, [1 / 2]⟩

/-- The kinds of linear solvers; the one for graphics cards needs the library AmgX. -/
inductive SolverOf (haveAmgX : Bool) : Option String → SolverType → Prop
  | default : SolverOf haveAmgX none .ksp
  | cpu : SolverOf haveAmgX (some "CPU") .ksp
  | gpu : haveAmgX = true → SolverOf haveAmgX (some "GPU") .amgx

/-- `P` are the parameters that the configuration gives, with the documented defaults: start at step 0 and time 0, first-order approximate inverse, solvers
on the CPU. -/
structure ParamsOf (haveAmgX : Bool) (output : String) (node : ParamNode K) (flow : FlowNode K) (P : NSParams K) : Prop where
  dt : node.dt = some P.dt
  nt : node.nt = some P.nt
  nsave : node.nsave = some P.nsave
  nrestart : node.nrestart = some P.nrestart
  nu : flow.nu = some P.nu
  nstart : ValueOr node.startStep 0 P.nstart
  t : ValueOr node.t 0 P.t
  BN : ValueOr node.BN 1 P.BN
  conv : ∃ name, node.schemes "convection" = some name ∧ SchemeOf name P.conv
  diff : ∃ name, node.schemes "diffusion" = some name ∧ SchemeOf name P.diff
  vType : SolverOf haveAmgX node.velocitySolver P.vType
  pType : SolverOf haveAmgX node.poissonSolver P.pType
  output : P.output = output

end PetIBM.Spec
