/-
Creation and destruction of the PETSc objects of the four solvers. Objects have reference counts as in PETSc; the variables of the program are pointers.
Represented: the members of type `Mat`, `Vec`, `IS`, `PetscViewer` of the solvers, the vectors of the solution, the KSP objects with their references to the
matrices, the objects that the functions below create for themselves, and, separately, the members of the probes. Not represented: the DMs of mesh and
bodies, the contexts of the shell matrices, the reference of a matrix to its null space, objects inside PETSc.
-/
import Verif.Model.TimeIntegration
import Mathlib.Data.List.Basic
import Mathlib.Logic.Function.Basic

namespace PetIBM

/-- The variables: members of `SolutionBase`; members of `NavierStokesSolver` (`applications/navierstokes/navierstokes.h` 104-209), of `DecoupledIBPMSolver`
(`applications/decoupledibpm/decoupledibpm.h` 63-96), of `RigidKinematicsSolver` (`applications/rigidkinematics/rigidkinematics.h` 59), of `IBPMSolver`
(`applications/ibpm/ibpm.h` 63-73), of the probes (`include/petibm/probes.h` 84-154, 313); the KSP objects and the matrices they refer to; local variables. -/
inductive PVar where
  | UGlobal | pGlobal
  | L | LCorrection | G | D | DCorrection | N | A | BNG | DBNG | dP | bc1 | rhs1 | rhs2 | conv (i : ℕ) | diff (i : ℕ) | solversViewer
  | vKsp | vAmat | vPmat | pKsp | pAmat | pPmat | fKsp | fAmat | fPmat
  | H | E | EBNH | BNH | f | df | rhsf | forcesViewer
  | UB
  | P | isDE0 | isDE1
  | BN | nsp | viewer | rightMat | tempResult | R | MHat | RDiag | MHatDiag | temp | nullVec
  | GH0 | GH1 | DE0 | DE1 | nest0 | nest1 | nestIS0 | nestIS1
  | Op | M | MHead | MHeadDiagInv | MDiagInv | leftMat | Bn
  | probeViewer | isPetsc | isNatural | dvec | svec
  deriving DecidableEq

/-- The value of a pointer: uninitialised, `PETSC_NULL`, or the object with this number. (`applications/navierstokes/navierstokes.h` 137-173) -/
inductive Handle where
  | wild
  | null
  | ptr (i : ℕ)
  deriving DecidableEq

/-- The objects, numbered as they are created, with their reference counts (0: freed, or not created), and the variables. (PETSc `PetscObject::refct`;
`applications/navierstokes/navierstokes.h` 137-173) -/
structure PMem where
  next : ℕ
  count : ℕ → ℕ
  var : PVar → Handle

/-- Members without initialiser. (`applications/navierstokes/navierstokes.h` 137-173) -/
def PMem.start : PMem := ⟨0, fun _ => 0, fun _ => .wild⟩

/-- The variable points to an object that exists. (`applications/navierstokes/navierstokes.h` 137-173) -/
def PMem.isLive (m : PMem) (x : PVar) : Bool :=
  match m.var x with
  | .ptr i => m.count i ≠ 0
  | _ => false

/-- What happens to objects: a local variable is declared; an object is created with the help of others (`XxxCreate`, `XxxDuplicate`, `MatMatMult`, …); objects
are used; `XxxDestroy(&x)`; `x = y`; `x = PETSC_NULL`; a member `x` of another object gets a reference to the object of `y` (`KSPSetOperators`,
`MatCreateNest`). (`applications/navierstokes/navierstokes.cpp` 317-392) -/
inductive Act where
  | declare (x : PVar)
  | create (x : PVar) (l : List PVar)
  | use (l : List PVar)
  | destroy (x : PVar)
  | assign (x y : PVar)
  | null (x : PVar)
  | refer (x y : PVar)

/-- PETSc's reference counting: a new object has one reference, `XxxDestroy(&x)` does nothing if `x` is null, otherwise removes a reference and sets `x` to
null. The use of a freed object, of an uninitialised pointer or of a null pointer is undefined (PETSc finds null pointers only when compiled with checks).
(`applications/navierstokes/navierstokes.cpp` 48-70) -/
def Act.exec : Act → PMem → Except Error PMem
  | .declare x, m => .ok { m with var := Function.update m.var x .wild }
  | .create x l, m =>
    if l.all m.isLive then .ok ⟨m.next + 1, Function.update m.count m.next 1, Function.update m.var x (.ptr m.next)⟩ else .error .ub
  | .use l, m => if l.all m.isLive then .ok m else .error .ub
  | .destroy x, m =>
    match m.var x with
    | .wild => .error .ub
    | .null => .ok m
    | .ptr i =>
      if m.count i = 0 then .error .ub
      else .ok { m with count := Function.update m.count i (m.count i - 1), var := Function.update m.var x .null }
  | .assign x y, m =>
    match m.var y with
    | .wild => .error .ub
    | h => .ok { m with var := Function.update m.var x h }
  | .null x, m => .ok { m with var := Function.update m.var x .null }
  | .refer x y, m =>
    match m.var y with
    | .ptr i =>
      if m.count i = 0 then .error .ub
      else .ok { m with count := Function.update m.count i (m.count i + 1), var := Function.update m.var x (.ptr i) }
    | _ => .error .ub

/-- One after the other. (`CHKERRQ`, e.g. `applications/navierstokes/navierstokes.cpp` 48-70) -/
def execActs : List Act → PMem → Except Error PMem
  | [], m => .ok m
  | a :: l, m =>
    match a.exec m with
    | .error e => .error e
    | .ok m => execActs l m

/-- `createBnHead` after the check of the order, `src/operators/createbn.cpp` 31-92. -/
def bnHeadActs (n : ℕ) (op out : PVar) : List Act :=
  [.create out [op], .declare .rightMat, .declare .tempResult] ++
    (List.range (n - 1)).flatMap fun k =>
      [.create .rightMat [op]] ++
        (List.range k).flatMap (fun _ => [.create .tempResult [op, .rightMat], .destroy .rightMat, .assign .rightMat .tempResult]) ++
          [.use [out, .rightMat], .destroy .rightMat]

/-- Statements: what happens to objects, and calls of `createBnHead`. (`src/operators/createbn.cpp` 19-95) -/
inductive Stmt where
  | act (a : Act)
  | createBnHead (n : ℕ) (op out : PVar)

/-- `createBnHead` fails for orders below 1. (`src/operators/createbn.cpp` 27-29) -/
def Stmt.exec : Stmt → PMem → Except Error PMem
  | .act a, m => a.exec m
  | .createBnHead n op out, m => if n < 1 then .error .argWrong else execActs (bnHeadActs n op out) m

/-- One after the other. (`CHKERRQ`, e.g. `applications/navierstokes/navierstokes.cpp` 48-70) -/
def execAll : List Stmt → PMem → Except Error PMem
  | [], m => .ok m
  | a :: l, m =>
    match a.exec m with
    | .error e => .error e
    | .ok m => execAll l m

/-- Statements without calls of `createBnHead`. (`src/operators/createbn.cpp` 98-128) -/
def acts (l : List Act) : List Stmt := l.map .act

/-- `createBn` with three matrices, `src/operators/createbn.cpp` 98-128. -/
def createBn3 (n : ℕ) : List Stmt :=
  [.createBnHead n .Op .Bn] ++ (acts [.create .MHeadDiagInv [.MHead], .use [.MHead, .MHeadDiagInv], .create .RDiag [.R], .use [.R, .RDiag],
    .use [.Bn, .RDiag, .MHeadDiagInv], .destroy .RDiag, .destroy .MHeadDiagInv])

/-- `createBn` with two matrices and order 1, `src/operators/createbn.cpp` 131-167: it returns in line 167. -/
def createBn2First : List Stmt :=
  acts [.create .Bn [.Op], .create .MDiagInv [.M], .use [.M, .MDiagInv], .use [.Bn, .MDiagInv]]

/-- `createBn` with two matrices, `src/operators/createbn.cpp` 131-220, after the check of the order. -/
def createBn2 (n : ℕ) : List Stmt :=
  if n = 1 then createBn2First
  else createBn2First ++ acts ([.create .leftMat [.Op], .use [.leftMat, .MDiagInv], .declare .rightMat, .declare .tempResult] ++
    (List.range (n - 1)).flatMap (fun k =>
      [.create .rightMat [.leftMat]] ++
        (List.range k).flatMap (fun _ => [.create .tempResult [.leftMat, .rightMat], .destroy .rightMat, .assign .rightMat .tempResult]) ++
          [.use [.rightMat, .MDiagInv], .use [.Bn, .rightMat], .destroy .rightMat]) ++
      [.destroy .leftMat])

/-! ### The parts of a run -/

/-- The choices on which the objects depend: kinds of the solvers (`true`: PETSc KSP, `false`: AmgX), numbers of explicit terms, order of `BN`.
(`applications/navierstokes/navierstokes.cpp` 144-154, 346-348) -/
structure ObjParams where
  v : Bool
  p : Bool
  f : Bool
  nConv : ℕ
  nDiff : ℕ
  order : ℕ

/-- What a step writes: solution, restart data, and whether the file of the restart data is new. (`applications/navierstokes/navierstokes.cpp` 278-301, 651-655) -/
structure StepFiles where
  save : Bool
  restart : Bool
  fresh : Bool

/-- `LinSolverKSP::init`, `src/linsolver/linsolverksp.cpp` 62: the members of the new KSP are null. AmgX has no PETSc object. -/
def kspCreate (k : Bool) (ksp amat pmat : PVar) : List Act := if k then [.create ksp [], .null amat, .null pmat] else []

/-- `LinSolverKSP::setMatrix`, `src/linsolver/linsolverksp.cpp` 72-82: `KSPReset` releases the matrices, `KSPSetOperators` keeps two references.
`LinSolverAmgX::setMatrix` copies. -/
def kspSetMatrix (k : Bool) (ksp amat pmat mat : PVar) : List Act :=
  if k then [.use [ksp], .destroy amat, .destroy pmat, .refer amat mat, .refer pmat mat] else [.use [mat]]

/-- `solve`, `src/linsolver/linsolverksp.cpp` 85-107. -/
def kspSolve (k : Bool) (ksp amat pmat x b : PVar) : List Act := if k then [.use [ksp, amat, pmat, x, b]] else [.use [x, b]]

/-- `~LinSolverKSP`, `src/linsolver/linsolverksp.cpp` 23-34: `KSPDestroy`. -/
def kspDestroy (k : Bool) (ksp amat pmat : PVar) : List Act := if k then [.destroy amat, .destroy pmat, .destroy ksp] else []

/-- `NavierStokesSolver::setNullSpace`, `applications/navierstokes/navierstokes.cpp` 395-430. -/
def nsSetNullSpace (c : ObjParams) : List Act :=
  if c.p then [.declare .nsp, .create .nsp [], .use [.DBNG, .nsp], .destroy .nsp] else [.use [.DBNG]]

/-- `NavierStokesSolver::createOperators`, `applications/navierstokes/navierstokes.cpp` 317-365. -/
def nsCreateOperators (c : ObjParams) : List Stmt :=
  (acts [.declare .BN, .create .D [], .create .DCorrection [], .create .G [], .create .L [], .create .LCorrection [], .create .N [], .create .A [.L]]) ++
    [.createBnHead c.order .L .BN] ++
      (acts ([.create .BNG [.BN, .G], .create .DBNG [.D, .BNG]] ++ nsSetNullSpace c ++ [.destroy .BN]))

/-- `NavierStokesSolver::createVectors`, `applications/navierstokes/navierstokes.cpp` 368-392. -/
def nsCreateVectors (c : ObjParams) : List Act :=
  [.create .dP [.pGlobal], .create .bc1 [.UGlobal], .create .rhs1 [.UGlobal], .create .rhs2 [.pGlobal]] ++
    (List.range c.nConv).map (fun i => .create (.conv i) [.UGlobal]) ++ (List.range c.nDiff).map fun i => .create (.diff i) [.UGlobal]

/-- `NavierStokesSolver::init`, `applications/navierstokes/navierstokes.cpp` 93-204, with the methods `ops` and `vecs` of the solver; the vectors of the solution
are created in `src/solution/solutionsimple.cpp` 48-51. -/
def nsInit (c : ObjParams) (ops : List Stmt) (vecs : List Act) : List Stmt :=
  (acts ([.create .UGlobal [], .create .pGlobal []] ++ kspCreate c.v .vKsp .vAmat .vPmat ++ kspCreate c.p .pKsp .pAmat .pPmat)) ++ ops ++
    (acts (vecs ++ kspSetMatrix c.v .vKsp .vAmat .vPmat .A ++ kspSetMatrix c.p .pKsp .pAmat .pPmat .DBNG ++ [.create .solversViewer []]))

/-- `assembleRHSVelocity`, `applications/navierstokes/navierstokes.cpp` 433-521. -/
def nsRHSVelocity (c : ObjParams) : List Act :=
  [.use [.G, .pGlobal, .rhs1, .UGlobal], .use (.N :: (List.range c.nConv).map .conv), .use (.L :: .LCorrection :: (List.range c.nDiff).map .diff),
    .use [.LCorrection, .UGlobal, .bc1, .rhs1]]

/-- `assembleRHSPoisson`, `solvePoisson`, `applyDivergenceFreeVelocity` and `updatePressure`, `applications/navierstokes/navierstokes.cpp` 540-615. -/
def nsProject (c : ObjParams) : List Act :=
  [.use [.D, .UGlobal, .rhs2, .DCorrection]] ++ kspSolve c.p .pKsp .pAmat .pPmat .dP .rhs2 ++ [.use [.BNG, .dP, .rhs1, .UGlobal], .use [.pGlobal, .dP]]

/-- `NavierStokesSolver::advance`, `applications/navierstokes/navierstokes.cpp` 240-266. -/
def nsAdvance (c : ObjParams) : List Act := nsRHSVelocity c ++ kspSolve c.v .vKsp .vAmat .vPmat .UGlobal .rhs1 ++ nsProject c

/-- A viewer that writes or reads these objects, e.g. `src/io/io.cpp` 143-166. -/
def withViewer (l : List PVar) : List Act := [.declare .viewer, .create .viewer [], .use (.viewer :: l), .destroy .viewer]

/-- `writeSolutionHDF5`, `applications/navierstokes/navierstokes.cpp` 618-633, with `writeTimeHDF5` 797-815. -/
def nsWriteSolution : List Act := withViewer [.UGlobal, .pGlobal] ++ withViewer []

/-- `writeRestartDataHDF5`, `applications/navierstokes/navierstokes.cpp` 636-688, with the method `sol` that writes the solution. -/
def nsWriteRestart (c : ObjParams) (w : StepFiles) (sol : List Act) : List Act :=
  (if w.fresh then sol else []) ++ withViewer ((List.range c.nConv).map .conv ++ (List.range c.nDiff).map .diff)

/-- `readRestartDataHDF5`, `applications/navierstokes/navierstokes.cpp` 691-746: solution, time, terms. -/
def nsReadRestart (c : ObjParams) : List Act :=
  withViewer [.UGlobal, .pGlobal] ++ withViewer [] ++ withViewer ((List.range c.nConv).map .conv ++ (List.range c.nDiff).map .diff)

/-- `NavierStokesSolver::write`, `applications/navierstokes/navierstokes.cpp` 269-308, with the methods of the solver; the log is written with a viewer. -/
def nsWrite (w : StepFiles) (sol restart : List Act) : List Act :=
  [.use [.solversViewer]] ++ (if w.save then sol ++ withViewer [] else []) ++ (if w.restart then restart else [])

/-- `NavierStokesSolver::destroy`, `applications/navierstokes/navierstokes.cpp` 38-91. -/
def nsDestroy (c : ObjParams) : List Act :=
  [.destroy .dP, .destroy .bc1, .destroy .rhs1, .destroy .rhs2] ++ (List.range c.nConv).map (fun i => .destroy (.conv i)) ++
    (List.range c.nDiff).map (fun i => .destroy (.diff i)) ++
    [.destroy .A, .destroy .DBNG, .destroy .BNG, .destroy .N, .destroy .G, .destroy .D, .destroy .DCorrection, .destroy .L, .destroy .LCorrection] ++
    kspDestroy c.v .vKsp .vAmat .vPmat ++ kspDestroy c.p .pKsp .pAmat .pPmat ++ [.destroy .UGlobal, .destroy .pGlobal, .destroy .solversViewer]

/-! ### Decoupled solver -/

/-- `DecoupledIBPMSolver::createExtraOperators`, `applications/decoupledibpm/decoupledibpm.cpp` 149-216. -/
def ibExtraOperators (c : ObjParams) : List Stmt :=
  (acts [.declare .R, .declare .MHat, .declare .BN, .declare .RDiag, .declare .MHatDiag, .create .R [], .create .RDiag [.R], .create .MHat [], .create .MHatDiag [.MHat],
    .create .E [], .create .H [.E], .use [.E, .RDiag], .use [.E, .MHatDiag]]) ++ [.createBnHead c.order .L .BN] ++
    (acts [.create .BNH [.BN, .H], .create .EBNH [.E, .BNH], .destroy .RDiag, .destroy .MHatDiag, .destroy .MHat, .destroy .R, .destroy .BN])

/-- `DecoupledIBPMSolver::init`, `applications/decoupledibpm/decoupledibpm.cpp` 57-102, with `createExtraVectors` 219-230. -/
def ibInit (c : ObjParams) : List Stmt :=
  nsInit c (nsCreateOperators c) (nsCreateVectors c) ++ (acts (kspCreate c.f .fKsp .fAmat .fPmat)) ++ ibExtraOperators c ++
    (acts ([.create .f [], .create .df [.f], .create .rhsf [.f]] ++ kspSetMatrix c.f .fKsp .fAmat .fPmat .EBNH ++ [.create .forcesViewer []]))

/-- `DecoupledIBPMSolver::advance`, `applications/decoupledibpm/decoupledibpm.cpp` 105-131; `extra` are the further vectors of `assembleRHSForces`. -/
def ibAdvance (c : ObjParams) (extra : List PVar) : List Act :=
  nsRHSVelocity c ++ [.use [.H, .f, .rhs1]] ++ kspSolve c.v .vKsp .vAmat .vPmat .UGlobal .rhs1 ++ [.use ([.E, .UGlobal, .rhsf] ++ extra)] ++
    kspSolve c.f .fKsp .fAmat .fPmat .df .rhsf ++ [.use [.BNH, .df, .UGlobal]] ++ nsProject c ++ [.use [.f, .df]]

/-- `DecoupledIBPMSolver::write`, `applications/decoupledibpm/decoupledibpm.cpp` 134-146, with `writeRestartDataHDF5` 319-348. -/
def ibWrite (c : ObjParams) (w : StepFiles) : List Act :=
  nsWrite w nsWriteSolution (nsWriteRestart c w nsWriteSolution ++ withViewer [.f]) ++ [.use [.f, .forcesViewer]]

/-- `DecoupledIBPMSolver::destroy`, `applications/decoupledibpm/decoupledibpm.cpp` 36-55. -/
def ibDestroy (c : ObjParams) : List Act :=
  kspDestroy c.f .fKsp .fAmat .fPmat ++ [.destroy .df, .destroy .f, .destroy .rhsf, .destroy .H, .destroy .E, .destroy .EBNH, .destroy .BNH, .destroy .forcesViewer] ++
    nsDestroy c

/-! ### Prescribed motion -/

/-- `RigidKinematicsSolver::advance`, `applications/rigidkinematics/rigidkinematics.cpp` 69-81, with `moveBodies` 119-140. -/
def rigidAdvanceActs (c : ObjParams) : List Stmt :=
  (acts [.destroy .E, .destroy .H, .destroy .BNH, .destroy .EBNH]) ++ ibExtraOperators c ++
    (acts (kspSetMatrix c.f .fKsp .fAmat .fPmat .EBNH ++ ibAdvance c [.UB]))

/-- `RigidKinematicsSolver::write`, `applications/rigidkinematics/rigidkinematics.cpp` 84-102: the bodies are written with viewers
(`src/body/singlebodypoints.cpp` 259-284). -/
def rigidWriteActs (c : ObjParams) (w : StepFiles) : List Act := ibWrite c w ++ if w.save then withViewer [] else []

/-! ### Coupled solver -/

/-- `IBPMSolver::createOperators`, `applications/ibpm/ibpm.cpp` 100-203, with `setNullSpace` 242-283. A nested matrix has references to its blocks and has its
own index sets, which are released with it. -/
def coupledCreateOperators (c : ObjParams) : List Stmt :=
  (acts [.declare .R, .declare .MHat, .declare .BN, .declare .RDiag, .declare .MHatDiag, .declare .GH0, .declare .GH1, .declare .DE0, .declare .DE1,
    .create .DE0 [], .create .DCorrection [], .create .GH0 [], .create .L [], .create .LCorrection [], .create .N [], .create .A [.L],
    .create .R [], .create .RDiag [.R], .create .MHat [], .create .MHatDiag [.MHat], .create .DE1 [], .create .GH1 [.DE1], .use [.DE1, .RDiag],
    .use [.DE1, .MHatDiag], .destroy .RDiag, .destroy .MHatDiag, .destroy .R, .destroy .MHat, .use [.GH1],
    .create .R [.GH0, .GH1], .refer .nest0 .GH0, .refer .nest1 .GH1, .create .G [.R], .destroy .nest0, .destroy .nest1, .destroy .R, .destroy .GH0, .destroy .GH1,
    .create .R [.DE0, .DE1], .refer .nest0 .DE0, .refer .nest1 .DE1, .create .nestIS0 [], .create .nestIS1 [], .create .D [.R], .create .isDE0 [.nestIS0],
    .create .isDE1 [.nestIS1], .use [.nestIS0, .isDE0], .use [.nestIS1, .isDE1], .destroy .nestIS0, .destroy .nestIS1, .destroy .nest0, .destroy .nest1, .destroy .R,
    .destroy .DE0, .destroy .DE1]) ++ [.createBnHead c.order .L .BN] ++
    (acts ([.create .BNG [.BN, .G], .create .DBNG [.D, .BNG]] ++
      (if c.p then [.declare .nullVec, .declare .nsp, .create .nullVec [.DBNG], .use [.nullVec, .isDE0], .create .nsp [.nullVec], .use [.DBNG, .nsp], .destroy .nullVec,
        .destroy .nsp] else [.use [.DBNG]]) ++ [.destroy .BN]))

/-- `IBPMSolver::createVectors`, `applications/ibpm/ibpm.cpp` 206-239. -/
def coupledCreateVectors (c : ObjParams) : List Act :=
  [.declare .temp, .create .P [.G], .assign .temp .pGlobal, .assign .pGlobal .P, .assign .P .temp, .null .temp, .use [.P], .use [.pGlobal, .isDE0, .P]] ++
    nsCreateVectors c

/-- `IBPMSolver::init`, `applications/ibpm/ibpm.cpp` 54-82. -/
def coupledInit (c : ObjParams) : List Stmt :=
  nsInit c (coupledCreateOperators c) (coupledCreateVectors c) ++ [.act (.create .forcesViewer [])]

/-- `advance` with `IBPMSolver::assembleRHSPoisson`, `applications/ibpm/ibpm.cpp` 286-313. -/
def coupledAdvanceActs (c : ObjParams) : List Act := nsRHSVelocity c ++ kspSolve c.v .vKsp .vAmat .vPmat .UGlobal .rhs1 ++ [.use [.rhs2, .isDE0]] ++ nsProject c

/-- `IBPMSolver::writeSolutionHDF5`, `applications/ibpm/ibpm.cpp` 316-335: the pressure is exchanged while `l` is done. `readRestartDataHDF5` (357-373) does the
same. `P` has the array of `pGlobal`. -/
def exchanged (l : List Act) : List Act :=
  [.declare .temp, .null .temp, .assign .temp .pGlobal, .assign .pGlobal .P] ++ l ++ [.use [.temp], .assign .pGlobal .temp, .null .temp]

/-- `IBPMSolver::write`, `applications/ibpm/ibpm.cpp` 85-97, with `writeRestartDataHDF5` 338-354 and `writeForcesASCII` 387-424. -/
def coupledWriteActs (c : ObjParams) (w : StepFiles) : List Act :=
  nsWrite w (exchanged nsWriteSolution) (nsWriteRestart c w (exchanged nsWriteSolution) ++ [.use [.pGlobal, .isDE1]] ++ withViewer [.pGlobal]) ++
    [.use [.pGlobal, .isDE1, .forcesViewer]]

/-- `IBPMSolver::destroy`, `applications/ibpm/ibpm.cpp` 36-52. -/
def coupledDestroy (c : ObjParams) : List Act :=
  [.destroy .isDE0, .destroy .isDE1, .use [.P], .destroy .P, .destroy .forcesViewer] ++ nsDestroy c

/-! ### The four programs -/

/-- A solver as a program: what `init` and `ioInitialData` do (`true`: the run starts at step 0), what a step does, what `destroy` does.
(`applications/navierstokes/main.cpp` 45-78) -/
structure ObjProgram where
  init : Bool → List Stmt
  step : StepFiles → List Stmt
  destroy : List Stmt

/-- `applications/navierstokes/main.cpp` 45-78, `ioInitialData` `navierstokes.cpp` 207-237. -/
def nsProgram (c : ObjParams) : ObjProgram where
  init zero := nsInit c (nsCreateOperators c) (nsCreateVectors c) ++ (acts (if zero then nsWriteSolution else nsReadRestart c))
  step w := acts (nsAdvance c ++ nsWrite w nsWriteSolution (nsWriteRestart c w nsWriteSolution))
  destroy := acts (nsDestroy c)

/-- `applications/decoupledibpm/main.cpp` 40-73, `readRestartDataHDF5` `decoupledibpm.cpp` 351-380. -/
def ibProgram (c : ObjParams) : ObjProgram where
  init zero := ibInit c ++ (acts (if zero then nsWriteSolution else nsReadRestart c ++ withViewer [.f]))
  step w := acts (ibAdvance c [] ++ ibWrite c w)
  destroy := acts (ibDestroy c)

/-- `examples/api_examples/oscillatingcylinder2dRe100_GPU/main.cpp` 16-49, `RigidKinematicsSolver::init` and `destroy`,
`applications/rigidkinematics/rigidkinematics.cpp` 34-66. -/
def rigidProgram (c : ObjParams) : ObjProgram where
  init zero := ibInit c ++ (acts ([.create .UB [.f], .use [.UB]] ++ (if zero then nsWriteSolution else nsReadRestart c ++ withViewer [.f]) ++ withViewer []))
  step w := rigidAdvanceActs c ++ (acts (rigidWriteActs c w))
  destroy := acts (ibDestroy c ++ [.destroy .UB])

/-- `applications/ibpm/main.cpp` 40-72, `readRestartDataHDF5` `ibpm.cpp` 357-384. -/
def coupledProgram (c : ObjParams) : ObjProgram where
  init zero := coupledInit c ++
    (acts (if zero then exchanged nsWriteSolution else exchanged (nsReadRestart c) ++ [.use [.pGlobal, .isDE1]] ++ withViewer [.pGlobal]))
  step w := acts (coupledAdvanceActs c ++ coupledWriteActs c w)
  destroy := acts (coupledDestroy c)

/-! ### Probes -/

/-- `ProbeVolume::init`, `src/misc/probes.cpp` 163-222, with `writeGrid` 332-429, `createIS` 267-310 and `writeIS` 432-486. -/
def volumeProbeInit : List Act :=
  [.null .probeViewer, .null .isPetsc, .null .isNatural, .null .dvec] ++ withViewer [] ++
    [.create .probeViewer [], .create .isPetsc [], .create .isNatural [], .use [.isNatural, .probeViewer]]

/-- The accumulated data, `src/misc/probes.cpp` 508-517 and 523; `write`: the data are written in this step. -/
def volumeProbeSum (write : Bool) : List Act := [.use [.dvec, .svec]] ++ (if write then [.use [.dvec, .probeViewer]] else []) ++ [.destroy .svec]

/-- `ProbeVolume::monitorVec`, `src/misc/probes.cpp` 489-526, of a vector of the solution; `sum` is `n_sum != 0`. `VecGetSubVector` gives a vector that
`VecRestoreSubVector` releases. -/
def volumeProbeMonitor (sum write : Bool) (m : PMem) : Except Error PMem :=
  match execActs [.declare .svec, .create .svec [.UGlobal, .isPetsc]] m with
  | .error e => .error e
  | .ok m =>
    if sum then
      match m.var .dvec with
      | .wild => .error .ub
      | .null => execActs (.create .dvec [.svec] :: volumeProbeSum write) m
      | .ptr _ => execActs (volumeProbeSum write) m
    else execActs [.use [.svec, .probeViewer], .destroy .svec] m

/-- The monitored steps of a run. (`src/misc/probes.cpp` 114-147) -/
def volumeProbeRun (sum : Bool) : List Bool → PMem → Except Error PMem
  | [], m => .ok m
  | w :: l, m =>
    match volumeProbeMonitor sum w m with
    | .error e => .error e
    | .ok m => volumeProbeRun sum l m

/-- `ProbeBase::destroy`, `src/misc/probes.cpp` 98-111. The destructor `~ProbeBase` (84-95) calls this one for every probe: the part of the derived class is
already gone, and the derived classes have no destructor. -/
def probeBaseDestroy : List Act := [.destroy .probeViewer]

/-- `ProbeVolume::destroy`, `src/misc/probes.cpp` 225-237. -/
def volumeProbeDestroy : List Act := probeBaseDestroy ++ [.destroy .isPetsc, .destroy .isNatural, .destroy .dvec]

/-- `ProbePoint::init`, `src/misc/probes.cpp` 607-645. -/
def pointProbeInit : List Act := [.null .probeViewer, .create .probeViewer [], .create .svec []]

/-- `ProbePoint::monitorVec`, `src/misc/probes.cpp` 665-686; `here`: the point is in the box of the process. -/
def pointProbeMonitor (here : Bool) : List Act := [.use [.UGlobal, .svec]] ++ if here then [.use [.svec, .probeViewer]] else []

/-- `ProbePoint::destroy`, `src/misc/probes.cpp` 648-662. -/
def pointProbeDestroy : List Act := probeBaseDestroy ++ [.destroy .svec]

end PetIBM
