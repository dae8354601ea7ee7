/-
The Navier-Stokes solver: operators, one time step, files, the main loop.
-/
import Verif.Model.TimeIntegration
import Verif.Model.Operators
import Verif.Model.Convection
import Verif.Model.Bn
import Verif.Model.Solution

namespace PetIBM

variable {K : Type} [Field K]

/-- A PETSc vector of length `N`: entries outside the range do not exist, here they are zero. (`applications/navierstokes/navierstokes.h` 164-179) -/
def vec (N : ℕ) (x : ℤ → K) : ℤ → K := fun i => if 0 ≤ i ∧ i < N then x i else 0

/-- A scalar of a YAML node that has to be there: `node[key].as<T>()` throws for undefined nodes. (`applications/navierstokes/navierstokes.cpp` 110-124) -/
def required {α : Type} : Option α → Except Error α
  | some x => .ok x
  | none => .error .exception

/-! ### Parameters -/

/-- `config["parameters"]` as far as the solver reads it; `none` for undefined keys. (`applications/navierstokes/navierstokes.cpp` 110-124, 395-429) -/
structure ParamNode (K : Type) where
  dt : Option K
  startStep : Option ℤ
  t : Option K
  nt : Option ℤ
  nsave : Option ℤ
  nrestart : Option ℤ
  BN : Option ℤ
  /-- the keys `convection` and `diffusion` -/
  schemes : String → Option String
  velocitySolver : Option String
  poissonSolver : Option String

/-- The members of the solver that are read from the configuration, with the time schemes and the types of the linear
solvers. (`applications/navierstokes/navierstokes.h` 98-134) -/
structure NSParams (K : Type) where
  dt : K
  nstart : ℤ
  t : K
  nt : ℤ
  nsave : ℤ
  nrestart : ℤ
  nu : K
  BN : ℤ
  conv : TimeScheme K
  diff : TimeScheme K
  vType : SolverType
  pType : SolverType
  output : String

/-- The reading part of `NavierStokesSolver::init`, `applications/navierstokes/navierstokes.cpp` 110-124 and 147-157, and the
key `BN` of `createOperators`, 345-346. Simplification: the parameters are read before anything else; the code creates the
mesh, the boundaries and the solution between them (errors of these steps come from the functions that model them). -/
def readParams (haveAmgX : Bool) (output : String) (parameters : Option (ParamNode K)) (flow : Option (FlowNode K)) :
    Except Error (NSParams K) := do
  let node ← required parameters
  let dt ← required node.dt
  let nt ← required node.nt
  let nsave ← required node.nsave
  let nrestart ← required node.nrestart
  let nu ← required (flow.bind (·.nu))
  let conv ← createTimeIntegration "convection" (some node.schemes)
  let diff ← createTimeIntegration "diffusion" (some node.schemes)
  let vType ← createLinSolver haveAmgX node.velocitySolver
  let pType ← createLinSolver haveAmgX node.poissonSolver
  return { dt := dt, nstart := node.startStep.getD 0, t := node.t.getD 0, nt := nt, nsave := nsave, nrestart := nrestart,
           nu := nu, BN := node.BN.getD 1, conv := conv, diff := diff, vType := vType, pType := pType, output := output }

/-! ### Operators -/

/-- The matrices of the solver; `pN` is the number of columns of `G` (rows of `D`), `Dmods` and `Lmods` the contexts of the
shell matrices `DCorrection` and `LCorrection`. (`applications/navierstokes/navierstokes.h` 137-161) -/
structure NSOps (K : Type) where
  pN : ℕ
  D : Mat K
  Dmods : Modifiers K
  G : Mat K
  L : Mat K
  Lmods : Modifiers K
  A : Mat K
  BNG : Mat K
  DBNG : Mat K
  isRefP : Bool

/-- `MatZeroRowsColumns(A, 1, {row}, diag)` without vectors: the row and the column are zeroed, the diagonal entry set. (`applications/navierstokes/navierstokes.cpp` 417) -/
def Mat.zeroRowColumn (A : Mat K) (row : ℤ) (diag : K) : Mat K := fun i j =>
  if i = row ∧ j = row then diag else if i = row ∨ j = row then 0 else A i j

/-- `setNullSpace`, `applications/navierstokes/navierstokes.cpp` 395-429. A null space attached to the matrix does not change
the matrix; what the linear solver does with it is part of the linear solver. -/
def setNullSpace (type : SolverType) (DBNG : Mat K) : Mat K × Bool :=
  match type with
  | .ksp => (DBNG, false)
  | .amgx => (Mat.zeroRowColumn DBNG 0 1, true)

/-- `createOperators`, `applications/navierstokes/navierstokes.cpp` 317-365. -/
def createOperators (debug : Bool) (L : Layout) (G : Geom K) (P : NSParams K) (B : ℕ → Boundary K) : Except Error (NSOps K) := do
  let (D, Dmods) ← createDivergence debug L G false B
  let Gr ← createGradient debug L G false
  let (Lap, Lmods) ← createLaplacian debug L G B
  let A := Mat.shift (Mat.scale Lap (-P.diff.implicitCoeff * P.nu)) (1 / P.dt)
  let BN ← createBnHead L.UN Lap P.dt (P.diff.implicitCoeff * P.nu) P.BN
  let BNG := Mat.mul L.UN BN Gr
  let DBNG := Mat.mul L.UN D BNG
  let (DBNG, isRefP) := setNullSpace P.pType DBNG
  return { pN := L.pN, D := D, Dmods := Dmods, G := Gr, L := Lap, Lmods := Lmods, A := A, BNG := BNG, DBNG := DBNG, isRefP := isRefP }

/-! ### State and one time step -/

/-- What changes in a run: velocity, pressure, pressure correction, stored explicit terms, ghost points of every rank, the local
work vectors of the convection operator (rank, component, slot), time and step. (`applications/navierstokes/navierstokes.h` 95-119, 164-179) -/
structure NSState (K : Type) where
  U : ℤ → K
  p : ℤ → K
  dP : ℤ → K
  conv : List (ℤ → K)
  diff : List (ℤ → K)
  B : ℕ → Boundary K
  loc : ℕ → ℕ → ℤ → K
  t : K
  ite : ℤ

/-- A linear solver: initial guess and right-hand side to solution, for a given matrix. Simplification: the internal state of the
PETSc object (preconditioner) is a function of the matrix. (`applications/navierstokes/navierstokes.cpp` 524-537, 566-580) -/
abbrev LinSolve (K : Type) := Mat K → (ℤ → K) → (ℤ → K) → Except Error (ℤ → K)

/-- `VecSwap(l[i], l[j])`. (`applications/navierstokes/navierstokes.cpp` 456, 484) -/
def vecSwap (l : List (ℤ → K)) (i j : ℕ) : Except Error (List (ℤ → K)) :=
  match l[i]?, l[j]? with
  | some x, some y => .ok ((l.set i y).set j x)
  | _, _ => .error .ub

/-- `for (int i = size - 1; i > 0; i--) VecSwap(l[i], l[i - 1])`, `navierstokes.cpp` 451-454 and 480-483: the iterations
`i, i - 1, …, 1`. -/
def swapLoop (l : List (ℤ → K)) : ℕ → Except Error (List (ℤ → K))
  | 0 => .ok l
  | i + 1 => do swapLoop (← vecSwap l (i + 1) i) i

/-- `for (unsigned int i = 0; i < terms.size(); ++i) VecAXPY(rhs, coeffs[i], terms[i])`, `navierstokes.cpp` 467-471 and 496-500. -/
def addTerms (coeffs : List K) (terms : List (ℤ → K)) (rhs : ℤ → K) : Except Error (ℤ → K) :=
  (List.range terms.length).foldlM (fun rhs i =>
    match coeffs[i]?, terms[i]? with
    | some c, some x => .ok fun n => rhs n + c * x n
    | _, _ => .error .ub) rhs

/-- The convective terms of `assembleRHSVelocity`, `applications/navierstokes/navierstokes.cpp` 446-472: new list of terms, new
work vectors. -/
def updateConv (L : Layout) (G : Geom K) (s : NSState K) : Except Error (List (ℤ → K) × (ℕ → ℕ → ℤ → K)) := do
  let conv ← swapLoop s.conv (s.conv.length - 1)
  match conv with
  | [] => return ([], s.loc)
  | c :: rest =>
    let y ← convectionMult L G s.B s.loc s.U c
    return ((fun i => -1 * y i) :: rest, fun r f => convectionLocal L s.B s.U s.loc r f)

/-- The diffusive terms of `assembleRHSVelocity`, `applications/navierstokes/navierstokes.cpp` 476-501. -/
def updateDiff (L : Layout) (nu : K) (ops : NSOps K) (s : NSState K) : Except Error (List (ℤ → K)) := do
  let diff ← swapLoop s.diff (s.diff.length - 1)
  match diff with
  | [] => return []
  | _ :: rest => return vec L.UN (fun i => nu * (Mat.mult L.UN ops.L s.U i + correctionMult L s.B ops.Lmods i)) :: rest

/-- `assembleRHSVelocity`, `applications/navierstokes/navierstokes.cpp` 432-521: `rhs1` and the new state. -/
def assembleRHSVelocity (L : Layout) (G : Geom K) (P : NSParams K) (ops : NSOps K) (s : NSState K) :
    Except Error ((ℤ → K) × NSState K) := do
  let rhs := vec L.UN fun i => -1 * Mat.mult ops.pN ops.G s.p i
  let rhs := fun i => rhs i + 1 / P.dt * s.U i
  let (conv, loc) ← updateConv L G s
  let rhs ← addTerms P.conv.explicitCoeffs conv rhs
  let diff ← updateDiff L P.nu ops s
  let rhs ← addTerms P.diff.explicitCoeffs diff rhs
  let B := fun r => (s.B r).updateEqs s.U P.dt
  let bc1 := vec L.UN fun i => P.nu * correctionMult L B ops.Lmods i
  let rhs := fun i => rhs i + P.diff.implicitCoeff * bc1 i
  return (rhs, { s with conv := conv, diff := diff, B := B, loc := loc })

/-- `assembleRHSPoisson`, `applications/navierstokes/navierstokes.cpp` 540-563. -/
def assembleRHSPoisson (L : Layout) (ops : NSOps K) (s : NSState K) : ℤ → K :=
  let rhs2 := vec ops.pN fun i => Mat.mult L.UN ops.D s.U i + correctionMult L s.B ops.Dmods i
  if ops.isRefP then Function.update rhs2 0 0 else rhs2

/-- `advance`, `applications/navierstokes/navierstokes.cpp` 240-266 with `solveVelocity` 524-537, `solvePoisson` 566-580,
`applyDivergenceFreeVelocity` 583-598, `updatePressure` 601-615. -/
def advance (L : Layout) (G : Geom K) (P : NSParams K) (ops : NSOps K) (vSolve pSolve : LinSolve K) (s : NSState K) :
    Except Error (NSState K) := do
  let s := { s with t := s.t + P.dt, ite := s.ite + 1 }
  let (rhs1, s) ← assembleRHSVelocity L G P ops s
  let U ← vSolve ops.A s.U rhs1
  let s := { s with U := vec L.UN U }
  let rhs2 := assembleRHSPoisson L ops s
  let dP ← pSolve ops.DBNG s.dP rhs2
  let s := { s with dP := vec ops.pN dP }
  let corr := vec L.UN (Mat.mult ops.pN ops.BNG s.dP)
  let s := { s with U := fun i => s.U i + -1 * corr i }
  let s := { s with p := fun i => s.p i + 1 * s.dP i }
  return { s with B := fun r => (s.B r).updateGhostValues s.U }

/-- The state after `init`: initial conditions, ghost points, operators, vectors (`createVectors`, 368-392; `VecDuplicate` gives
zero vectors). `B` are the boundary objects that all ranks constructed. (`applications/navierstokes/navierstokes.cpp` 134-160) -/
def solverInit (debug : Bool) (L : Layout) (G : Geom K) (P : NSParams K) (flow : Option (FlowNode K)) (B : ℕ → Boundary K) :
    Except Error (NSOps K × NSState K) := do
  let (U, p) ← setInitialConditions L G flow (fun _ => 0) fun _ => 0
  let B := fun r => (B r).setGhostICs U
  let ops ← createOperators debug L G P B
  return (ops, { U := U, p := p, dP := fun _ => 0, conv := List.replicate P.conv.nExplicit fun _ => 0,
                 diff := List.replicate P.diff.nExplicit fun _ => 0, B := B, loc := fun _ _ _ => 0, t := P.t, ite := P.nstart })

/-! ### Files -/

/-- `ss << std::setfill('0') << std::setw(7) << ite`: the decimal representation, filled with zeros on the left (also before a
sign). (`applications/navierstokes/navierstokes.cpp` 637-688) -/
def stepDigits (ite : ℤ) : String :=
  let d := (toString ite).toList
  String.ofList (List.replicate (7 - d.length) '0' ++ d)

/-- Path of the file of a step, e.g. `navierstokes.cpp` 216-218. -/
def stepPath (output : String) (ite : ℤ) : String := output ++ "/" ++ stepDigits ite ++ ".h5"

/-- `writeSolutionHDF5`, `applications/navierstokes/navierstokes.cpp` 618-634, with `writeTimeHDF5` 797-820. -/
def writeSolutionHDF5 (L : Layout) (s : NSState K) (disk : Disk K) (path : String) : Except Error (Disk K) := do
  let disk ← solutionWrite L s.U s.p disk path
  match disk path with
  | none => .error .fileRead
  | some file =>
    match file.data "/p" with
    | none => .error .fileRead
    | some _ => return Function.update disk path (some { file with time := some s.t })

/-- The entries of a packed vector in the order of the file. (`src/solution/solutionsimple.cpp` 229-259, `src/io/io.cpp` 137-166) -/
def packedList (N : ℕ) (x : ℤ → K) : List K := (List.range N).map fun i : ℕ => x i

/-- `writeRestartDataHDF5`, `applications/navierstokes/navierstokes.cpp` 637-688. Group names are absolute paths. -/
def writeRestartDataHDF5 (L : Layout) (s : NSState K) (disk : Disk K) (path : String) : Except Error (Disk K) := do
  let disk ← match disk path with
    | none => writeSolutionHDF5 L s disk path
    | some _ => pure disk
  let disk := writeHDF5Vecs disk path "/convection/" ((List.range s.conv.length).map toString) (s.conv.map (packedList L.UN)) .append
  return writeHDF5Vecs disk path "/diffusion/" ((List.range s.diff.length).map toString) (s.diff.map (packedList L.UN)) .append

/-- A vector loaded from its list of entries. (`src/solution/solutionsimple.cpp` 262-292, `src/io/io.cpp` 242-272) -/
def packedVec (l : List K) : ℤ → K := fun i => if 0 ≤ i then l.getD i.toNat 0 else 0

/-- `readRestartDataHDF5`, `applications/navierstokes/navierstokes.cpp` 691-746. -/
def readRestartDataHDF5 (L : Layout) (s : NSState K) (disk : Disk K) (path : String) : Except Error (NSState K) := do
  match disk path with
  | none => .error .fileRead
  | some file =>
    let (U, p) ← solutionRead L s.U s.p disk path
    let t ← match file.data "/p", file.time with
      | some _, some t => .ok t
      | _, _ => .error .fileRead
    let conv ← readHDF5Vecs disk path "/convection/" ((List.range s.conv.length).map toString) (List.replicate s.conv.length L.UN)
    let diff ← readHDF5Vecs disk path "/diffusion/" ((List.range s.diff.length).map toString) (List.replicate s.diff.length L.UN)
    return { s with U := U, p := p, t := t, conv := conv.map packedVec, diff := diff.map packedVec,
                    B := fun r => (s.B r).setGhostICs U }

/-- `ioInitialData`, `applications/navierstokes/navierstokes.cpp` 207-237. -/
def ioInitialData (L : Layout) (P : NSParams K) (s : NSState K) (disk : Disk K) : Except Error (NSState K × Disk K) := do
  if s.ite = 0 then return (s, ← writeSolutionHDF5 L s disk (stepPath P.output s.ite))
  else return (← readRestartDataHDF5 L s disk (stepPath P.output s.ite), disk)

/-- `write`, `applications/navierstokes/navierstokes.cpp` 269-308, without log files, solver information and probes. The remainder
of a division by zero is undefined. -/
def writeStep (L : Layout) (P : NSParams K) (s : NSState K) (disk : Disk K) : Except Error (Disk K) := do
  if P.nsave = 0 then .error .ub
  else
    let disk ← if Int.tmod s.ite P.nsave = 0 then writeSolutionHDF5 L s disk (stepPath P.output s.ite) else pure disk
    if P.nrestart = 0 then .error .ub
    else if Int.tmod s.ite P.nrestart = 0 then writeRestartDataHDF5 L s disk (stepPath P.output s.ite) else pure disk

/-! ### Main loop -/

/-- `finished`, `applications/navierstokes/navierstokes.cpp` 311-314. -/
def finished (P : NSParams K) (s : NSState K) : Bool := decide (s.ite ≥ P.nstart + P.nt)

/-- `while (!solver.finished()) { solver.advance(); solver.write(); }`, `applications/navierstokes/main.cpp` 64-70; at most `fuel`
iterations, `none` if the loop is still running. -/
def mainLoop (L : Layout) (G : Geom K) (P : NSParams K) (ops : NSOps K) (vSolve pSolve : LinSolve K) :
    ℕ → NSState K → Disk K → Option (Except Error (NSState K × Disk K))
  | fuel, s, disk =>
    if finished P s then some (.ok (s, disk))
    else match fuel with
      | 0 => none
      | fuel + 1 =>
        match advance L G P ops vSolve pSolve s with
        | .error e => some (.error e)
        | .ok s =>
          match writeStep L P s disk with
          | .error e => some (.error e)
          | .ok disk => mainLoop L G P ops vSolve pSolve fuel s disk

/-- `main`, `applications/navierstokes/main.cpp` 45-78 after the settings have been read. -/
def runSolver (debug : Bool) (L : Layout) (G : Geom K) (P : NSParams K) (flow : Option (FlowNode K)) (B : ℕ → Boundary K)
    (vSolve pSolve : LinSolve K) (fuel : ℕ) (disk : Disk K) : Option (Except Error (NSState K × Disk K)) :=
  match solverInit debug L G P flow B with
  | .error e => some (.error e)
  | .ok (ops, s) =>
    match ioInitialData L P s disk with
    | .error e => some (.error e)
    | .ok (s, disk) => mainLoop L G P ops vSolve pSolve fuel s disk

end PetIBM
