/-
The objects for the linear solvers, `src/linsolver`, and the file with the numbers of iterations.
-/
import Verif.Model.IbpmRun

namespace PetIBM

/-- The keys `type` and `config` under `parameters`, `<name>Solver`. (`src/linsolver/linsolver.cpp` 57-76) -/
structure SolverNode where
  type : Option String
  config : Option String

/-- What a solve leaves: the vector, the reason for stopping (`KSPConvergedReason`, negative if the iteration diverged), number of iterations and norm of
the residual. (`src/linsolver/linsolverksp.cpp` 85-107) -/
structure SolveOutcome (K : Type) where
  x : ℤ → K
  reason : ℤ
  iters : ℤ
  res : K

/-- The external libraries: `KSPSolve` of PETSc and `AmgXSolver::solve` of AmgXWrapper, as functions of the name of the solver (which is the prefix of its
options), matrix, initial guess and right-hand side. The latter may return an error code. Simplification: no other state. (`src/linsolver/linsolverksp.cpp` 85-107, `src/linsolver/linsolveramgx.cpp` 90-99) -/
structure Backends (K : Type) where
  ksp : String → Mat K → (ℤ → K) → (ℤ → K) → SolveOutcome K
  amgx : String → Mat K → (ℤ → K) → (ℤ → K) → Except Error (SolveOutcome K)

/-- The member `ksp` (`amgx`) of a solver: an indeterminate value (`include/petibm/linsolverksp.h` 58 has no initialiser), or an object with its matrix, if
any, and the numbers of the last solve. -/
inductive SolverHandle (K : Type) where
  | garbage
  | object (matrix : Option (Mat K)) (iters : ℤ) (res : K)

/-- `LinSolverKSP` or `LinSolverAmgX`, with the members of `LinSolverBase` (`include/petibm/linsolver.h` 122-135). -/
structure SolverObject (K : Type) where
  kind : SolverType
  name : String
  config : String
  type : String
  handle : SolverHandle K

variable {K : Type}

section

variable [Zero K]

/-- `LinSolverKSP::init`, `src/linsolver/linsolverksp.cpp` 48-69: the object and the error code. `readable` tells which files can be read
(`PetscOptionsInsertFile` fails otherwise). -/
def kspInit (readable : String → Bool) (name config : String) : SolverObject K × Option Error :=
  if config ≠ "None" ∧ readable config = false then (⟨.ksp, name, config, "PETSc KSP", .garbage⟩, some .fileRead)
  else (⟨.ksp, name, config, "PETSc KSP", .object none 0 0⟩, none)

/-- The constructor `LinSolverKSP::LinSolverKSP`, `src/linsolver/linsolverksp.cpp` 16-20. The error code of `init` is dropped. -/
def kspConstruct (readable : String → Bool) (name config : String) : SolverObject K := (kspInit readable name config).1

/-- The constructor `LinSolverAmgX::LinSolverAmgX`, `src/linsolver/linsolveramgx.cpp` 20-25 with `init` 54-75. Simplification: `AmgXSolver::initialize`
succeeds. -/
def amgxConstruct (name config : String) : SolverObject K :=
  let config := if config = "None" then "solversAmgXOptions-tmp.info" else config
  ⟨.amgx, name, config, "NVIDIA AmgX", .object none 0 0⟩

/-- `createLinSolver`, `src/linsolver/linsolver.cpp` 57-91. `config[0]` of the empty string is the terminating zero. -/
def createSolverObject (haveAmgX : Bool) (readable : String → Bool) (directory : Option String) (solverName : String) (node : SolverNode) :
    Except Error (SolverObject K) := do
  let config := node.config.getD "None"
  let config ← if config.toList.headD '\x00' ≠ '/' ∧ config ≠ "None" then (do return (← required directory) ++ "/" ++ config) else pure config
  match createLinSolver haveAmgX node.type with
  | .ok .ksp => return kspConstruct readable solverName config
  | .ok .amgx => return amgxConstruct solverName config
  | .error e => .error e

end

namespace SolverObject

/-- `setMatrix`, `src/linsolver/linsolverksp.cpp` 72-82, `linsolveramgx.cpp` 78-87. The use of an indeterminate pointer is undefined. -/
def setMatrix (o : SolverObject K) (A : Mat K) : Except Error (SolverObject K) :=
  match o.handle with
  | .garbage => .error .ub
  | .object _ iters res => .ok { o with handle := .object (some A) iters res }

/-- `solve`, `src/linsolver/linsolverksp.cpp` 85-107, `linsolveramgx.cpp` 90-99: the new vector of unknowns, and the object. Without a matrix PETSc
returns an error. -/
def solve (be : Backends K) (o : SolverObject K) (x b : ℤ → K) : Except Error ((ℤ → K) × SolverObject K) :=
  match o.handle with
  | .garbage => .error .ub
  | .object none _ _ => .error .argWrong
  | .object (some A) _ _ =>
    match o.kind with
    | .ksp =>
      let r := be.ksp o.name A x b
      if r.reason < 0 then .error .convFailed
      else .ok (r.x, { o with handle := .object (some A) r.iters r.res })
    | .amgx =>
      match be.amgx o.name A x b with
      | .error e => .error e
      | .ok r => .ok (r.x, { o with handle := .object (some A) r.iters r.res })

/-- `getIters` and `getResidual`, `src/linsolver/linsolverksp.cpp` 110-131, `linsolveramgx.cpp` 102-126. -/
def numbers (o : SolverObject K) : Except Error (ℤ × K) :=
  match o.handle with
  | .garbage => .error .ub
  | .object _ iters res => .ok (iters, res)

end SolverObject

/-- The members `vSolver`, `pSolver`. (`applications/navierstokes/navierstokes.h` 104-107) -/
structure FlowSolvers (K : Type) where
  v : SolverObject K
  p : SolverObject K

/-- The members `vSolver`, `pSolver`, `fSolver`. (`applications/navierstokes/navierstokes.h` 104-107, `applications/decoupledibpm/decoupledibpm.h` 63) -/
structure BodySolvers (K : Type) extends FlowSolvers K where
  f : SolverObject K

variable [Field K] [LinearOrder K]

/-- `NavierStokesSolver::advance` with the objects that solve the systems; otherwise as `advance`. (`applications/navierstokes/navierstokes.cpp` 240-266) -/
def advanceWith (be : Backends K) (L : Layout) (G : Geom K) (P : NSParams K) (ops : NSOps K) (s : NSState K) (o : FlowSolvers K) :
    Except Error (NSState K × FlowSolvers K) := do
  let s := { s with t := s.t + P.dt, ite := s.ite + 1 }
  let (rhs1, s) ← assembleRHSVelocity L G P ops s
  let (U, v) ← o.v.solve be s.U rhs1
  let s := { s with U := vec L.UN U }
  let rhs2 := assembleRHSPoisson L ops s
  let (dP, p) ← o.p.solve be s.dP rhs2
  let s := { s with dP := vec ops.pN dP }
  let corr := vec L.UN (Mat.mult ops.pN ops.BNG s.dP)
  let s := { s with U := fun i => s.U i + -1 * corr i }
  let s := { s with p := fun i => s.p i + 1 * s.dP i }
  return ({ s with B := fun r => (s.B r).updateGhostValues s.U }, ⟨v, p⟩)

/-- `DecoupledIBPMSolver::advance` with the objects that solve the systems; otherwise as `decoupledAdvance`. (`applications/decoupledibpm/decoupledibpm.cpp` 105-131) -/
def decoupledAdvanceWith (be : Backends K) (L : Layout) (G : Geom K) (P : NSParams K) (ops : NSOps K) (ib : IBOps K) (UB : Option (ℤ → K)) (s : IBState K)
    (o : BodySolvers K) : Except Error (IBState K × BodySolvers K) := do
  let ns := { s.ns with t := s.ns.t + P.dt, ite := s.ns.ite + 1 }
  let (rhs1, ns) ← assembleRHSVelocity L G P ops ns
  let rhs1 := fun i => rhs1 i + vec L.UN (Mat.mult ib.nF ib.H s.f) i
  let (U, v) ← o.v.solve be ns.U rhs1
  let ns := { ns with U := vec L.UN U }
  let rhsf := assembleRHSForces L ib UB ns.U
  let (df, f) ← o.f.solve be s.df rhsf
  let df := vec ib.nF df
  let ns := { ns with U := fun i => ns.U i + vec L.UN (Mat.mult ib.nF ib.BNH df) i }
  let rhs2 := assembleRHSPoisson L ops ns
  let (dP, p) ← o.p.solve be ns.dP rhs2
  let ns := { ns with dP := vec ops.pN dP }
  let corr := vec L.UN (Mat.mult ops.pN ops.BNG ns.dP)
  let ns := { ns with U := fun i => ns.U i + -1 * corr i }
  let ns := { ns with p := fun i => ns.p i + 1 * ns.dP i }
  let fNew := fun i => s.f i + 1 * df i
  return ({ ns := { ns with B := fun r => (ns.B r).updateGhostValues ns.U }, f := fNew, df := df }, ⟨⟨v, p⟩, f⟩)

/-- `RigidKinematicsSolver::advance`, `applications/rigidkinematics/rigidkinematics.cpp` 69-81, with `moveBodies` 119-140: the force solver gets the new
matrix (line 135). -/
def rigidAdvanceWith (be : Backends K) (debug : Bool) (L : Layout) (G : Geom K) (axes : ℕ → Axis K) (P : NSParams K) (ops : NSOps K) (M : Motion K)
    (kernel : DeltaKernel K) (window : ℕ) (s : RigidState K) (o : BodySolvers K) : Except Error (RigidState K × BodySolvers K) := do
  let s ← moveBodies debug L G axes P ops M kernel window (s.ns.t + P.dt) s
  let f ← o.f.setMatrix s.ib.EBNH
  let (st, o) ← decoupledAdvanceWith be L G P ops s.ib (some s.UB) s.toIBState { o with f := f }
  return ({ s with toIBState := st }, o)

/-- The file of the numbers of iterations, `applications/navierstokes/navierstokes.cpp` 179-183; `ite` is the step at which the run starts. -/
def iterationsPath (output : String) (ite : ℤ) : String := output ++ "/iterations-" ++ toString ite ++ ".txt"

/-- One line of the file: `"%d\t"`, `"%d\t%e\t"`, ..., `"%d\t%e\n"`; `fmt` is `printf("%e")`. (`applications/navierstokes/navierstokes.cpp` 691-746) -/
def iterationsLine (fmt : K → List Char) (ite : ℤ) (l : List (ℤ × K)) : List Char :=
  (toString ite).toList ++ l.flatMap fun x => '\t' :: ((toString x.1).toList ++ '\t' :: fmt x.2)

/-- `NavierStokesSolver::writeLinSolversInfo`, `applications/navierstokes/navierstokes.cpp` 766-794: the line. -/
def writeLinSolversInfo (fmt : K → List Char) (s : NSState K) (o : FlowSolvers K) : Except Error (List Char) := do
  let v ← o.v.numbers
  let p ← o.p.numbers
  return iterationsLine fmt s.ite [v, p]

/-- `DecoupledIBPMSolver::writeLinSolversInfo`, `applications/decoupledibpm/decoupledibpm.cpp` 383-417: the line. -/
def decoupledWriteLinSolversInfo (fmt : K → List Char) (s : NSState K) (o : BodySolvers K) : Except Error (List Char) := do
  let v ← o.v.numbers
  let p ← o.p.numbers
  let f ← o.f.numbers
  return iterationsLine fmt s.ite [v, p, f]

/-- `while (!solver.finished()) { solver.advance(); solver.write(); }` with the objects, for a solver with state `S` and objects `O`; `lines` have been
written to the file of the numbers of iterations. `write` first writes the line of the step (`navierstokes.cpp` 275-276). At most `fuel` iterations, `none` if
the loop is still running. -/
def reportLoop {S O D : Type} (P : NSParams K) (ns : S → NSState K) (advance : S → O → Except Error (S × O)) (info : S → O → Except Error (List Char))
    (write : S → D → Except Error D) : ℕ → S → O → D → List (List Char) → Option (Except Error (S × O × D × List (List Char)))
  | fuel, s, o, disk, lines =>
    if finished P (ns s) then some (.ok (s, o, disk, lines))
    else match fuel with
      | 0 => none
      | fuel + 1 =>
        match advance s o with
        | .error e => some (.error e)
        | .ok (s, o) =>
          match info s o with
          | .error e => some (.error e)
          | .ok line =>
            match write s disk with
            | .error e => some (.error e)
            | .ok disk => reportLoop P ns advance info write fuel s o disk (lines ++ [line])

/-- The solvers in `NavierStokesSolver::init`: created in lines 150-154. (`applications/navierstokes/navierstokes.cpp`) -/
def createFlowSolvers (haveAmgX : Bool) (readable : String → Bool) (directory : Option String) (velocity poisson : SolverNode) :
    Except Error (FlowSolvers K) := do
  let v ← createSolverObject haveAmgX readable directory "velocity" velocity
  let p ← createSolverObject haveAmgX readable directory "poisson" poisson
  return ⟨v, p⟩

/-- Lines 163-164 of `NavierStokesSolver::init`. (`applications/navierstokes/navierstokes.cpp`) -/
def FlowSolvers.setMatrices (o : FlowSolvers K) (ops : NSOps K) : Except Error (FlowSolvers K) := do
  let v ← o.v.setMatrix ops.A
  let p ← o.p.setMatrix ops.DBNG
  return ⟨v, p⟩

/-- `main`, `applications/navierstokes/main.cpp` 45-78 after the settings have been read, with the objects of the linear solvers: `runSolver` with the file
of the numbers of iterations, which is opened with `FILE_MODE_WRITE` in `init`. Simplifications: the objects are created before the initial conditions are
evaluated, and the lines of the file appear when the run is over. -/
def runWith (be : Backends K) (haveAmgX : Bool) (readable : String → Bool) (directory : Option String) (velocity poisson : SolverNode) (fmt : K → List Char)
    (debug : Bool) (L : Layout) (G : Geom K) (P : NSParams K) (flow : Option (FlowNode K)) (B : ℕ → Boundary K) (fuel : ℕ) (disk : Disk K) (text : TextDisk) :
    Option (Except Error (NSState K × FlowSolvers K × Disk K × TextDisk)) :=
  match createFlowSolvers haveAmgX readable directory velocity poisson with
  | .error e => some (.error e)
  | .ok o =>
    match solverInit debug L G P flow B with
    | .error e => some (.error e)
    | .ok (ops, s) =>
      match o.setMatrices ops with
      | .error e => some (.error e)
      | .ok o =>
        match ioInitialData L P s disk with
        | .error e => some (.error e)
        | .ok (s, disk) =>
          (reportLoop P id (advanceWith be L G P ops) (writeLinSolversInfo fmt) (writeStep L P) fuel s o disk []).map fun r => r.map fun (s, o, disk, lines) =>
            (s, o, disk, Function.update text (iterationsPath P.output P.nstart) (some ⟨lines, true⟩))

/-- `main`, `applications/decoupledibpm/main.cpp` 40-73 after the settings have been read, with the objects of the linear solvers: `runDecoupled` with the file
of the numbers of iterations. The object for the forces is created in `decoupledibpm.cpp` 73-75 and gets its matrix in line 84. Simplifications as in
`runWith`. -/
def runDecoupledWith (be : Backends K) (haveAmgX : Bool) (readable : String → Bool) (directory : Option String) (velocity poisson forces : SolverNode)
    (fmt fmt' : K → List Char) (debug : Bool) (L : Layout) (G : Geom K) (axes : ℕ → Axis K) (P : NSParams K) (flow : Option (FlowNode K)) (B : ℕ → Boundary K)
    (bodies : BodyPack K) (kernel : DeltaKernel K) (window : ℕ) (fuel : ℕ) (disk : Disk K) (text : TextDisk) :
    Option (Except Error (IBState K × BodySolvers K × Disk K × TextDisk)) :=
  match createFlowSolvers haveAmgX readable directory velocity poisson with
  | .error e => some (.error e)
  | .ok o =>
    match createSolverObject haveAmgX readable directory "forces" forces with
    | .error e => some (.error e)
    | .ok f =>
      match decoupledInit debug L G axes P flow B bodies kernel window with
      | .error e => some (.error e)
      | .ok (ops, ib, s) =>
        match o.setMatrices ops with
        | .error e => some (.error e)
        | .ok o =>
          match f.setMatrix ib.EBNH with
          | .error e => some (.error e)
          | .ok f =>
            match decoupledIoInitialData L P ib s disk with
            | .error e => some (.error e)
            | .ok (s, disk) =>
              (reportLoop P IBState.ns (decoupledAdvanceWith be L G P ops ib none) (fun s o => decoupledWriteLinSolversInfo fmt s.ns o)
                (fun s (d : Disk K × TextDisk) => (decoupledWriteStep L P ib bodies s d.1).map fun (disk, t, avg) =>
                  (disk, printForces P.output P.nstart (forcesLine fmt' t avg) d.2))
                fuel s ⟨o, f⟩ (disk, openForces P.output P.nstart text) []).map fun r => r.map fun (s, o, (disk, text), lines) =>
                (s, o, disk, Function.update text (iterationsPath P.output P.nstart) (some ⟨lines, true⟩))

end PetIBM
