/-
Runs of the coupled solver and of the solver for prescribed motion with the objects of the linear solvers.
-/
import Verif.Model.LinSolver

namespace PetIBM

variable {K : Type} [Field K] [LinearOrder K]

/-- `NavierStokesSolver::advance` with the methods of `IBPMSolver` and the objects that solve the systems; otherwise as `ibpmAdvance`.
(`applications/navierstokes/navierstokes.cpp` 240-266, `applications/ibpm/ibpm.cpp` 286-313) -/
def ibpmAdvanceWith (be : Backends K) (L : Layout) (G : Geom K) (P : NSParams K) (counts : List (ℕ × ℕ)) (ops : NSOps K) (s : NSState K) (o : FlowSolvers K) :
    Except Error (NSState K × FlowSolvers K) := do
  let s := { s with t := s.t + P.dt, ite := s.ite + 1 }
  let (rhs1, s) ← assembleRHSVelocity L G P ops s
  let (U, v) ← o.v.solve be s.U rhs1
  let s := { s with U := vec L.UN U }
  let rhs2 := ibpmRHSPoisson L counts ops s
  let (dP, p) ← o.p.solve be s.dP rhs2
  let s := { s with dP := vec ops.pN dP }
  let corr := vec L.UN (Mat.mult ops.pN ops.BNG s.dP)
  let s := { s with U := fun i => s.U i + -1 * corr i }
  let s := { s with p := fun i => s.p i + 1 * s.dP i }
  return ({ s with B := fun r => (s.B r).updateGhostValues s.U }, ⟨v, p⟩)

/-- `main`, `applications/ibpm/main.cpp` 40-72 after the settings have been read, with the objects of the linear solvers: `runCoupled` with the file of the
numbers of iterations. `IBPMSolver::write` calls `NavierStokesSolver::write` (`applications/ibpm/ibpm.cpp` 85-97), so the line has the numbers of two systems.
Simplifications as in `runWith`. -/
def runCoupledWith (be : Backends K) (haveAmgX : Bool) (readable : String → Bool) (directory : Option String) (velocity poisson : SolverNode)
    (fmt fmt' : K → List Char) (debug : Bool) (L : Layout) (G : Geom K) (axes : ℕ → Axis K) (P : NSParams K) (flow : Option (FlowNode K)) (B : ℕ → Boundary K)
    (bodies : BodyPack K) (kernel : DeltaKernel K) (window : ℕ) (fuel : ℕ) (disk : Disk K) (text : TextDisk) :
    Option (Except Error (NSState K × FlowSolvers K × Disk K × TextDisk)) :=
  match createFlowSolvers haveAmgX readable directory velocity poisson with
  | .error e => some (.error e)
  | .ok o =>
    match ibpmInit debug L G axes P flow B bodies kernel window with
    | .error e => some (.error e)
    | .ok ((ops, _), s) =>
      match o.setMatrices ops with
      | .error e => some (.error e)
      | .ok o =>
        match ibpmIoInitialData L P (nestCounts L bodies) (bodies.nPts * bodies.dim) s disk with
        | .error e => some (.error e)
        | .ok (s, disk) =>
          (reportLoop P id (ibpmAdvanceWith be L G P (nestCounts L bodies) ops) (writeLinSolversInfo fmt)
            (fun s (d : Disk K × TextDisk) => (ibpmWriteStep L P (nestCounts L bodies) bodies s d.1).map fun (disk, t, avg) =>
              (disk, printForces P.output P.nstart (forcesLine fmt' t avg) d.2))
            fuel s o (disk, openForces P.output P.nstart text) []).map fun r => r.map fun (s, o, (disk, text), lines) =>
            (s, o, disk, Function.update text (iterationsPath P.output P.nstart) (some ⟨lines, true⟩))

/-- `main`, `examples/api_examples/oscillatingcylinder2dRe100_GPU/main.cpp` 16-49 after the settings have been read, for any motion `M`, with the objects of the
linear solvers: `runRigid` with the file of the numbers of iterations. `RigidKinematicsSolver::write` calls `DecoupledIBPMSolver::write`
(`applications/rigidkinematics/rigidkinematics.cpp` 84-102). Simplifications as in `runWith`. -/
def runRigidWith (be : Backends K) (haveAmgX : Bool) (readable : String → Bool) (directory : Option String) (velocity poisson forces : SolverNode)
    (fmt fmt' : K → List Char) (debug : Bool) (L : Layout) (G : Geom K) (axes : ℕ → Axis K) (P : NSParams K) (flow : Option (FlowNode K)) (B : ℕ → Boundary K)
    (bodies : BodyPack K) (names : List String) (M : Motion K) (kernel : DeltaKernel K) (window : ℕ) (fuel : ℕ) (disk : Disk K) (text : TextDisk) :
    Option (Except Error (RigidState K × BodySolvers K × Disk K × TextDisk)) :=
  match createFlowSolvers haveAmgX readable directory velocity poisson with
  | .error e => some (.error e)
  | .ok o =>
    match createSolverObject haveAmgX readable directory "forces" forces with
    | .error e => some (.error e)
    | .ok f =>
      match rigidInit debug L G axes P flow B bodies kernel window with
      | .error e => some (.error e)
      | .ok (ops, s) =>
        match o.setMatrices ops with
        | .error e => some (.error e)
        | .ok o =>
          match f.setMatrix s.ib.EBNH with
          | .error e => some (.error e)
          | .ok f =>
            match rigidIoInitialData L P fmt' names s disk (openForces P.output P.nstart text) with
            | .error e => some (.error e)
            | .ok (s, disk, text) =>
              (reportLoop P (fun s : RigidState K => s.ns) (rigidAdvanceWith be debug L G axes P ops M kernel window)
                (fun s o => decoupledWriteLinSolversInfo fmt s.ns o) (fun s (d : Disk K × TextDisk) => rigidWriteStep L P fmt' names s d.1 d.2)
                fuel s ⟨o, f⟩ (disk, text) []).map fun r => r.map fun (s, o, (disk, text), lines) =>
                (s, o, disk, Function.update text (iterationsPath P.output P.nstart) (some ⟨lines, true⟩))

end PetIBM
