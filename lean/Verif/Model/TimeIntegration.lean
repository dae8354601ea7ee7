/-
Time integration schemes and linear solver objects.
-/
import Verif.Model.Index
import Mathlib.Algebra.Field.Basic

namespace PetIBM

variable {K : Type} [Field K]

/-- `TimeIntegrationBase`, `include/petibm/timeintegration.h` 45-90, without the names. -/
structure TimeScheme (K : Type) where
  implicitCoeff : K
  nExplicit : ℕ
  explicitCoeffs : List K

/-- `Euler_Explicit`, `include/petibm/timeintegration.h` 100-113. -/
def eulerExplicit : TimeScheme K := ⟨0, 1, [1]⟩

/-- `Euler_Implicit`, `include/petibm/timeintegration.h` 120-132. -/
def eulerImplicit : TimeScheme K := ⟨1, 0, []⟩

/-- `Adams_Bashforth_2`, `include/petibm/timeintegration.h` 138-151. -/
def adamsBashforth2 : TimeScheme K := ⟨0, 2, [3 / 2, -(1 / 2)]⟩

/-- `Crank_Nicolson`, `include/petibm/timeintegration.h` 158-171. -/
def crankNicolson : TimeScheme K := ⟨1 / 2, 1, [1 / 2]⟩

/-- `createTimeIntegration`, `src/timeintegration/timeintegration.cpp` 40-83. `parameters` is `node["parameters"]` (`none` if
undefined), as a partial map from keys to scalars. -/
def createTimeIntegration (name : String) (parameters : Option (String → Option String)) : Except Error (TimeScheme K) :=
  match parameters with
  | none => .error .argOutOfRange
  | some node =>
    match node name with
    | none => .error .argOutOfRange
    | some scheme =>
      if scheme = "EULER_EXPLICIT" then .ok eulerExplicit
      else if scheme = "EULER_IMPLICIT" then .ok eulerImplicit
      else if scheme = "ADAMS_BASHFORTH_2" then .ok adamsBashforth2
      else if scheme = "CRANK_NICOLSON" then .ok crankNicolson
      else .error .argOutOfRange

/-- The two kinds of linear solvers. (`src/linsolver/linsolver.cpp` 76-88) -/
inductive SolverType where
  | ksp | amgx
deriving DecidableEq

/-- `createLinSolver`, `src/linsolver/linsolver.cpp` 55-89, with the constructors reduced to the type of the object. `type` is
the scalar under `parameters`, `<name>Solver`, `type`; `haveAmgX` whether the code is compiled with AmgX. -/
def createLinSolver (haveAmgX : Bool) (type : Option String) : Except Error SolverType :=
  let type := type.getD "CPU"
  if type = "CPU" then .ok .ksp
  else if type = "GPU" then (if haveAmgX then .ok .amgx else .error .argWrong)
  else .error .argWrong

end PetIBM
