/-
The solvers with immersed bodies: decoupled (`applications/decoupledibpm`), with prescribed motion
(`applications/rigidkinematics`) and coupled (`applications/ibpm`).
-/
import Verif.Model.NavierStokes
import Verif.Model.Delta
import Verif.Model.Diag

namespace PetIBM

variable {K : Type} [Field K] [LinearOrder K]

/-- `MatTranspose`. (`applications/decoupledibpm/decoupledibpm.cpp` 179) -/
def Mat.transpose (A : Mat K) : Mat K := fun i j => A j i

/-- `BodyPackBase::updateMeshIdx`, `src/body/bodypack.cpp` 160-172: `meshIdx` of every body on every rank. -/
def BodyPack.updateMeshIdx (P : BodyPack K) (axes : ℕ → Axis K) : Except Error (List (List (List (List ℤ)))) :=
  (List.range P.mpiSize).mapM fun r => P.bodies.mapM fun b => b.updateMeshIdx axes r

/-- `meshIdx` of body `b` on rank `r`. (`include/petibm/singlebody.h` 62) -/
def meshIdxAt (l : List (List (List (List ℤ)))) (r b : ℕ) : List (List ℤ) := (l.getD r []).getD b []

/-- The regularised delta function: `parameters.delta` with its default, and `getKernel`
(`decoupledibpm.cpp` 173-177, `ibpm.cpp` 143-147). -/
noncomputable def deltaOption (name : Option String) : Except Error (DeltaKernel ℝ × ℤ) := getKernel (name.getD "ROMA_ET_AL_1999")

/-- The operators between grid and bodies that both families of solvers build: the interpolation `E` (delta operator, columns
scaled by the diagonals of `R` and `MHat`) and the spreading `H` (transpose of the unscaled operator). `decoupledibpm.cpp`
159-186, `ibpm.cpp` 130-158. -/
def createEH (debug : Bool) (L : Layout) (G : Geom K) (axes : ℕ → Axis K) (B : ℕ → Boundary K) (bodies : BodyPack K)
    (meshIdx : ℕ → ℕ → List (List ℤ)) (kernel : DeltaKernel K) (window : ℕ) : Except Error (Mat K × Mat K) := do
  let R ← createR debug L G
  let MHat ← createMHead debug L G
  let E ← createDelta debug L axes B bodies meshIdx kernel window
  let H := Mat.transpose E
  let E := Mat.diagonalScale E (fun _ => 1) (Mat.diagonal R)
  let E := Mat.diagonalScale E (fun _ => 1) (Mat.diagonal MHat)
  return (E, H)

/-! ### The decoupled solver -/

/-- The additional matrices of the decoupled solver; `nF` is the size of the vectors of Lagrangian forces. (`applications/decoupledibpm/decoupledibpm.h` 66-75) -/
structure IBOps (K : Type) where
  nF : ℕ
  E : Mat K
  H : Mat K
  BNH : Mat K
  EBNH : Mat K

/-- `DecoupledIBPMSolver::createExtraOperators`, `applications/decoupledibpm/decoupledibpm.cpp` 149-216; `kernel` and `window`
come from `deltaOption`. -/
def createExtraOperators (debug : Bool) (L : Layout) (G : Geom K) (axes : ℕ → Axis K) (P : NSParams K) (ops : NSOps K)
    (B : ℕ → Boundary K) (bodies : BodyPack K) (meshIdx : ℕ → ℕ → List (List ℤ)) (kernel : DeltaKernel K) (window : ℕ) :
    Except Error (IBOps K) := do
  let (E, H) ← createEH debug L G axes B bodies meshIdx kernel window
  let BN ← createBnHead L.UN ops.L P.dt (P.diff.implicitCoeff * P.nu) P.BN
  let BNH := Mat.mul L.UN BN H
  let EBNH := Mat.mul L.UN E BNH
  return { nF := bodies.nPts * bodies.dim, E := E, H := H, BNH := BNH, EBNH := EBNH }

/-- State of the decoupled solver: flow, Lagrangian forces and their increment. (`applications/decoupledibpm/decoupledibpm.h` 78-84) -/
structure IBState (K : Type) where
  ns : NSState K
  f : ℤ → K
  df : ℤ → K

/-- `DecoupledIBPMSolver::assembleRHSForces` 253-268 (`none`) and `RigidKinematicsSolver::assembleRHSForces`,
`applications/rigidkinematics/rigidkinematics.cpp` 143-159 (`some UB`). -/
def assembleRHSForces (L : Layout) (ib : IBOps K) (UB : Option (ℤ → K)) (U : ℤ → K) : ℤ → K :=
  let rhsf := vec ib.nF (Mat.mult L.UN ib.E U)
  let rhsf := fun i => -1 * rhsf i
  match UB with
  | none => rhsf
  | some ub => fun i => 1 * rhsf i + ub i

/-- `DecoupledIBPMSolver::advance`, `applications/decoupledibpm/decoupledibpm.cpp` 105-131, with `assembleRHSVelocity` 233-250,
`solveForces` 271-285, `applyNoSlip` 288-299, `updateForces` 302-316 and the methods of the base class. -/
def decoupledAdvance (L : Layout) (G : Geom K) (P : NSParams K) (ops : NSOps K) (ib : IBOps K) (UB : Option (ℤ → K))
    (vSolve fSolve pSolve : LinSolve K) (s : IBState K) : Except Error (IBState K) := do
  let ns := { s.ns with t := s.ns.t + P.dt, ite := s.ns.ite + 1 }
  let (rhs1, ns) ← assembleRHSVelocity L G P ops ns
  let rhs1 := fun i => rhs1 i + vec L.UN (Mat.mult ib.nF ib.H s.f) i
  let U ← vSolve ops.A ns.U rhs1
  let ns := { ns with U := vec L.UN U }
  let rhsf := assembleRHSForces L ib UB ns.U
  let df ← fSolve ib.EBNH s.df rhsf
  let df := vec ib.nF df
  let ns := { ns with U := fun i => ns.U i + vec L.UN (Mat.mult ib.nF ib.BNH df) i }
  let rhs2 := assembleRHSPoisson L ops ns
  let dP ← pSolve ops.DBNG ns.dP rhs2
  let ns := { ns with dP := vec ops.pN dP }
  let corr := vec L.UN (Mat.mult ops.pN ops.BNG ns.dP)
  let ns := { ns with U := fun i => ns.U i + -1 * corr i }
  let ns := { ns with p := fun i => ns.p i + 1 * ns.dP i }
  let f := fun i => s.f i + 1 * df i
  return { ns := { ns with B := fun r => (ns.B r).updateGhostValues ns.U }, f := f, df := df }

/-- `DecoupledIBPMSolver::init`, lines 57-102, with `createExtraVectors` 219-230. (`applications/decoupledibpm/decoupledibpm.cpp`) -/
def decoupledInit (debug : Bool) (L : Layout) (G : Geom K) (axes : ℕ → Axis K) (P : NSParams K) (flow : Option (FlowNode K))
    (B : ℕ → Boundary K) (bodies : BodyPack K) (kernel : DeltaKernel K) (window : ℕ) :
    Except Error (NSOps K × IBOps K × IBState K) := do
  let (ops, ns) ← solverInit debug L G P flow B
  let idx ← bodies.updateMeshIdx axes
  let ib ← createExtraOperators debug L G axes P ops ns.B bodies (meshIdxAt idx) kernel window
  return (ops, ib, { ns := ns, f := fun _ => 0, df := fun _ => 0 })

/-- `DecoupledIBPMSolver::writeRestartDataHDF5`, lines 319-350. (`applications/decoupledibpm/decoupledibpm.cpp`) -/
def decoupledWriteRestart (L : Layout) (ib : IBOps K) (s : IBState K) (disk : Disk K) (path : String) : Except Error (Disk K) := do
  let disk ← writeRestartDataHDF5 L s.ns disk path
  return writeHDF5Vecs disk path "/" ["force"] [packedList ib.nF s.f] .append

/-- `DecoupledIBPMSolver::readRestartDataHDF5`, lines 353-380. (`applications/decoupledibpm/decoupledibpm.cpp`) -/
def decoupledReadRestart (L : Layout) (ib : IBOps K) (s : IBState K) (disk : Disk K) (path : String) :
    Except Error (IBState K) := do
  let ns ← readRestartDataHDF5 L s.ns disk path
  let f ← readHDF5Vecs disk path "/" ["force"] [ib.nF]
  match f with
  | [v] => return { s with ns := ns, f := packedVec v }
  | _ => .error .fileRead

/-- `NavierStokesSolver::ioInitialData` with the reading method of the decoupled solver. (`applications/navierstokes/navierstokes.cpp` 207-237) -/
def decoupledIoInitialData (L : Layout) (P : NSParams K) (ib : IBOps K) (s : IBState K) (disk : Disk K) :
    Except Error (IBState K × Disk K) := do
  if s.ns.ite = 0 then return (s, ← writeSolutionHDF5 L s.ns disk (stepPath P.output s.ns.ite))
  else return (← decoupledReadRestart L ib s disk (stepPath P.output s.ns.ite), disk)

/-- `DecoupledIBPMSolver::write`, lines 134-146: the files of a step, and the line appended to the file of forces
(`writeForcesASCII` 420-453): time and average forces of all bodies. (`applications/decoupledibpm/decoupledibpm.cpp`) -/
def decoupledWriteStep (L : Layout) (P : NSParams K) (ib : IBOps K) (bodies : BodyPack K) (s : IBState K) (disk : Disk K) :
    Except Error (Disk K × (K × List (List K))) := do
  if P.nsave = 0 then .error .ub
  else
    let disk ← if Int.tmod s.ns.ite P.nsave = 0 then writeSolutionHDF5 L s.ns disk (stepPath P.output s.ns.ite) else pure disk
    if P.nrestart = 0 then .error .ub
    else
      let disk ← if Int.tmod s.ns.ite P.nrestart = 0 then decoupledWriteRestart L ib s disk (stepPath P.output s.ns.ite) else pure disk
      return (disk, (s.ns.t, bodies.calculateAvgForces s.f))

/-! ### Prescribed motion -/

/-- What the user implements in a subclass of `RigidKinematicsSolver` (`rigidkinematics.h` 82-100): new bodies and new velocity of
their points, as functions of time. Simplification: the methods may read nothing but the bodies and `UB`. -/
structure Motion (K : Type) where
  coordinates : K → BodyPack K → BodyPack K
  velocity : K → BodyPack K → (ℤ → K) → (ℤ → K)

/-- State of the solver with prescribed motion. (`applications/rigidkinematics/rigidkinematics.h` 59) -/
structure RigidState (K : Type) extends IBState K where
  bodies : BodyPack K
  UB : ℤ → K
  ib : IBOps K

/-- `RigidKinematicsSolver::moveBodies`, `applications/rigidkinematics/rigidkinematics.cpp` 119-140. -/
def moveBodies (debug : Bool) (L : Layout) (G : Geom K) (axes : ℕ → Axis K) (P : NSParams K) (ops : NSOps K) (M : Motion K)
    (kernel : DeltaKernel K) (window : ℕ) (ti : K) (s : RigidState K) : Except Error (RigidState K) := do
  let bodies := M.coordinates ti s.bodies
  let UB := M.velocity ti bodies s.UB
  let idx ← bodies.updateMeshIdx axes
  let ib ← createExtraOperators debug L G axes P ops s.ns.B bodies (meshIdxAt idx) kernel window
  return { s with bodies := bodies, UB := UB, ib := ib }

/-- `RigidKinematicsSolver::advance`, lines 69-81. (`applications/rigidkinematics/rigidkinematics.cpp`) -/
def rigidAdvance (debug : Bool) (L : Layout) (G : Geom K) (axes : ℕ → Axis K) (P : NSParams K) (ops : NSOps K) (M : Motion K)
    (kernel : DeltaKernel K) (window : ℕ) (vSolve fSolve pSolve : LinSolve K) (s : RigidState K) :
    Except Error (RigidState K) := do
  let s ← moveBodies debug L G axes P ops M kernel window (s.ns.t + P.dt) s
  let st ← decoupledAdvance L G P ops s.ib (some s.UB) vSolve fSolve pSolve s.toIBState
  return { s with toIBState := st }

/-! ### The coupled solver -/

/-- Numbering of `MatCreateNest` with two blocks: the rows (columns) of the first block of rank 0, of the second block of rank 0,
of the first block of rank 1, and so on (PETSc `MatSetUp_NestIS_Private`). `counts` are the local sizes of the two blocks on
every rank; `p₀` and `f₀` the numbers of rows of the blocks on the ranks before. (`applications/ibpm/ibpm.cpp` 164-180) -/
def nestSplit : List (ℕ × ℕ) → ℕ → ℕ → ℕ → Option (ℕ ⊕ ℕ)
  | [], _, _, _ => none
  | (p, f) :: l, p₀, f₀, i =>
    if i < p then some (.inl (p₀ + i))
    else if i < p + f then some (.inr (f₀ + (i - p)))
    else nestSplit l (p₀ + p) (f₀ + f) (i - (p + f))

/-- The index set `isDE[0]` (`inl`) and `isDE[1]` (`inr`): position in the nested numbering of an entry of a block. (`applications/ibpm/ibpm.cpp` 175-180) -/
def nestPos : List (ℕ × ℕ) → ℕ ⊕ ℕ → ℕ
  | [], _ => 0
  | (p, f) :: l, .inl a => if a < p then a else p + f + nestPos l (.inl (a - p))
  | (p, f) :: l, .inr b => if b < f then p + b else p + f + nestPos l (.inr (b - f))

/-- Local sizes of pressure and forces on every rank. (`applications/ibpm/ibpm.cpp` 164-180) -/
def nestCounts (L : Layout) (bodies : BodyPack K) : List (ℕ × ℕ) :=
  (List.range L.mpiSize).map fun r => ((L.box 3 r).length, bodies.nLclAllProcs r)

/-- `MatCreateNest(comm, 2, nullptr, 1, nullptr, {A, B})` and conversion to AIJ. (`applications/ibpm/ibpm.cpp` 172-182) -/
def Mat.nestRows (counts : List (ℕ × ℕ)) (A B : Mat K) : Mat K := fun i j =>
  if 0 ≤ i then
    match nestSplit counts 0 0 i.toNat with
    | some (.inl a) => A a j
    | some (.inr b) => B b j
    | none => 0
  else 0

/-- `MatCreateNest(comm, 1, nullptr, 2, nullptr, {A, B})` and conversion to AIJ. (`applications/ibpm/ibpm.cpp` 164-170) -/
def Mat.nestCols (counts : List (ℕ × ℕ)) (A B : Mat K) : Mat K := fun i j => Mat.transpose (Mat.nestRows counts (Mat.transpose A) (Mat.transpose B)) i j

/-- `VecGetSubVector(x, isDE[0])`. (`applications/ibpm/ibpm.cpp` 228, 299) -/
def subPressure (counts : List (ℕ × ℕ)) (x : ℤ → K) : ℤ → K := fun a => if 0 ≤ a then x (nestPos counts (.inl a.toNat) : ℕ) else 0

/-- `VecGetSubVector(x, isDE[1])`. (`applications/ibpm/ibpm.cpp` 348, 377, 398) -/
def subForces (counts : List (ℕ × ℕ)) (x : ℤ → K) : ℤ → K := fun b => if 0 ≤ b then x (nestPos counts (.inr b.toNat) : ℕ) else 0

/-- A vector of the nested numbering from its two parts (writing through the subvectors). (`applications/ibpm/ibpm.cpp` 299-301) -/
def nestVec (counts : List (ℕ × ℕ)) (p f : ℤ → K) : ℤ → K := fun i =>
  if 0 ≤ i then
    match nestSplit counts 0 0 i.toNat with
    | some (.inl a) => p a
    | some (.inr b) => f b
    | none => 0
  else 0

/-- `IBPMSolver::createOperators`, `applications/ibpm/ibpm.cpp` 100-203, with `setNullSpace` 242-283: operators with the composite
`G` and `D`, and the operators `E`, `H` themselves. As in the base class, a null space attached to `DBNG` does not change it. -/
def ibpmCreateOperators (debug : Bool) (L : Layout) (G : Geom K) (axes : ℕ → Axis K) (P : NSParams K) (B : ℕ → Boundary K)
    (bodies : BodyPack K) (kernel : DeltaKernel K) (window : ℕ) : Except Error (NSOps K × Mat K × Mat K) := do
  let (D, Dmods) ← createDivergence debug L G false B
  let Gr ← createGradient debug L G false
  let (Lap, Lmods) ← createLaplacian debug L G B
  let A := Mat.shift (Mat.scale Lap (-P.diff.implicitCoeff * P.nu)) (1 / P.dt)
  let idx ← bodies.updateMeshIdx axes
  let (E, H) ← createEH debug L G axes B bodies (meshIdxAt idx) kernel window
  let counts := nestCounts L bodies
  let GH := Mat.nestCols counts Gr (Mat.scale H (-1))
  let DE := Mat.nestRows counts D E
  let BN ← createBnHead L.UN Lap P.dt (P.diff.implicitCoeff * P.nu) P.BN
  let BNG := Mat.mul L.UN BN GH
  let DBNG := Mat.mul L.UN DE BNG
  let (DBNG, isRefP) := setNullSpace P.pType DBNG
  return ({ pN := L.pN + bodies.nPts * bodies.dim, D := DE, Dmods := Dmods, G := GH, L := Lap, Lmods := Lmods, A := A, BNG := BNG,
            DBNG := DBNG, isRefP := isRefP }, E, H)

/-- The vector of the null space that `IBPMSolver::setNullSpace` attaches to the composite matrix, `applications/ibpm/ibpm.cpp` 252-263: zero, but
`c` (in the code one over the square root of the number of cells) in the pressure part. -/
def ibpmNullVector (counts : List (ℕ × ℕ)) (c : K) : ℤ → K := nestVec counts (fun _ => c) fun _ => 0

/-- `IBPMSolver::assembleRHSPoisson`, `applications/ibpm/ibpm.cpp` 286-313. -/
def ibpmRHSPoisson (L : Layout) (counts : List (ℕ × ℕ)) (ops : NSOps K) (s : NSState K) : ℤ → K :=
  let rhs2 := vec ops.pN (Mat.mult L.UN ops.D s.U)
  let bc2 := fun a => subPressure counts rhs2 a + vec L.pN (correctionMult L s.B ops.Dmods) a
  let rhs2 := nestVec counts bc2 (subForces counts rhs2)
  if ops.isRefP then Function.update rhs2 0 0 else rhs2

/-- `NavierStokesSolver::advance` (`applications/navierstokes/navierstokes.cpp` 240-266) with the methods of `IBPMSolver`. The
pressure vectors have the composite numbering. -/
def ibpmAdvance (L : Layout) (G : Geom K) (P : NSParams K) (counts : List (ℕ × ℕ)) (ops : NSOps K) (vSolve pSolve : LinSolve K)
    (s : NSState K) : Except Error (NSState K) := do
  let s := { s with t := s.t + P.dt, ite := s.ite + 1 }
  let (rhs1, s) ← assembleRHSVelocity L G P ops s
  let U ← vSolve ops.A s.U rhs1
  let s := { s with U := vec L.UN U }
  let rhs2 := ibpmRHSPoisson L counts ops s
  let dP ← pSolve ops.DBNG s.dP rhs2
  let s := { s with dP := vec ops.pN dP }
  let corr := vec L.UN (Mat.mult ops.pN ops.BNG s.dP)
  let s := { s with U := fun i => s.U i + -1 * corr i }
  let s := { s with p := fun i => s.p i + 1 * s.dP i }
  return { s with B := fun r => (s.B r).updateGhostValues s.U }

/-- `IBPMSolver::init`, `applications/ibpm/ibpm.cpp` 54-82, with `createVectors` 206-239: the composite vector that becomes `pGlobal` is new, hence
zero, and the array that held the initial pressure is freed (line 225). -/
def ibpmInit (debug : Bool) (L : Layout) (G : Geom K) (axes : ℕ → Axis K) (P : NSParams K) (flow : Option (FlowNode K))
    (B : ℕ → Boundary K) (bodies : BodyPack K) (kernel : DeltaKernel K) (window : ℕ) :
    Except Error ((NSOps K × Mat K × Mat K) × NSState K) := do
  let (U, _) ← setInitialConditions L G flow (fun _ => 0) fun _ => 0
  let B := fun r => (B r).setGhostICs U
  let ops ← ibpmCreateOperators debug L G axes P B bodies kernel window
  return (ops, { U := U, p := fun _ => 0, dP := fun _ => 0, conv := List.replicate P.conv.nExplicit fun _ => 0,
                 diff := List.replicate P.diff.nExplicit fun _ => 0, B := B, loc := fun _ _ _ => 0, t := P.t, ite := P.nstart })

/-- `IBPMSolver::writeSolutionHDF5`, lines 316-335: `P` shares the memory of the pressure part. (`applications/ibpm/ibpm.cpp`) -/
def ibpmWriteSolution (L : Layout) (counts : List (ℕ × ℕ)) (s : NSState K) (disk : Disk K) (path : String) : Except Error (Disk K) :=
  writeSolutionHDF5 L { s with p := subPressure counts s.p } disk path

/-- `IBPMSolver::writeRestartDataHDF5`, lines 338-354. (`applications/ibpm/ibpm.cpp`) -/
def ibpmWriteRestart (L : Layout) (counts : List (ℕ × ℕ)) (nF : ℕ) (s : NSState K) (disk : Disk K) (path : String) :
    Except Error (Disk K) := do
  let disk ← writeRestartDataHDF5 L { s with p := subPressure counts s.p } disk path
  return writeHDF5Vecs disk path "/" ["force"] [packedList nF (subForces counts s.p)] .append

/-- `IBPMSolver::readRestartDataHDF5`, lines 357-384. (`applications/ibpm/ibpm.cpp`) -/
def ibpmReadRestart (L : Layout) (counts : List (ℕ × ℕ)) (nF : ℕ) (s : NSState K) (disk : Disk K) (path : String) :
    Except Error (NSState K) := do
  let s' ← readRestartDataHDF5 L { s with p := subPressure counts s.p } disk path
  let f ← readHDF5Vecs disk path "/" ["force"] [nF]
  match f with
  | [v] => return { s' with p := nestVec counts s'.p (packedVec v) }
  | _ => .error .fileRead

/-- `NavierStokesSolver::ioInitialData` with the methods of `IBPMSolver`. (`applications/navierstokes/navierstokes.cpp` 207-237) -/
def ibpmIoInitialData (L : Layout) (P : NSParams K) (counts : List (ℕ × ℕ)) (nF : ℕ) (s : NSState K) (disk : Disk K) :
    Except Error (NSState K × Disk K) := do
  if s.ite = 0 then return (s, ← ibpmWriteSolution L counts s disk (stepPath P.output s.ite))
  else return (← ibpmReadRestart L counts nF s disk (stepPath P.output s.ite), disk)

end PetIBM
