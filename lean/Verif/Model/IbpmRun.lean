/-
Complete runs of the solvers with immersed bodies: `main` of `applications/decoupledibpm` and `applications/ibpm`, and of the example with prescribed
motion.
-/
import Verif.Model.Motion

namespace PetIBM

variable {K : Type} [Field K] [LinearOrder K]

/-- `IBPMSolver::write`, `applications/ibpm/ibpm.cpp` 85-97, with `NavierStokesSolver::write` (`applications/navierstokes/navierstokes.cpp` 269-308)
and `writeForcesASCII` 387-423: the files of a step, and time and average forces. -/
def ibpmWriteStep (L : Layout) (P : NSParams K) (counts : List (ℕ × ℕ)) (bodies : BodyPack K) (s : NSState K) (disk : Disk K) :
    Except Error (Disk K × (K × List (List K))) := do
  if P.nsave = 0 then .error .ub
  else
    let disk ← if Int.tmod s.ite P.nsave = 0 then ibpmWriteSolution L counts s disk (stepPath P.output s.ite) else pure disk
    if P.nrestart = 0 then .error .ub
    else
      let disk ← if Int.tmod s.ite P.nrestart = 0 then ibpmWriteRestart L counts (bodies.nPts * bodies.dim) s disk (stepPath P.output s.ite)
        else pure disk
      return (disk, (s.t, bodies.calculateAvgForces (subForces counts s.p)))

/-- `while (!solver.finished()) { solver.advance(); solver.write(); }`, `applications/decoupledibpm/main.cpp` 59-65,
`applications/ibpm/main.cpp` 58-64, for a solver with state `S`, flow `ns`, and methods `advance` and `write`; at most `fuel` iterations, `none` if the
loop is still running. -/
def bodyLoop {S : Type} (P : NSParams K) (fmt : K → List Char) (ns : S → NSState K) (advance : S → Except Error S)
    (write : S → Disk K → Except Error (Disk K × (K × List (List K)))) : ℕ → S → Disk K → TextDisk → Option (Except Error (S × Disk K × TextDisk))
  | fuel, s, disk, text =>
    if finished P (ns s) then some (.ok (s, disk, text))
    else match fuel with
      | 0 => none
      | fuel + 1 =>
        match advance s with
        | .error e => some (.error e)
        | .ok s =>
          match write s disk with
          | .error e => some (.error e)
          | .ok (disk, t, avg) => bodyLoop P fmt ns advance write fuel s disk (printForces P.output P.nstart (forcesLine fmt t avg) text)

/-- `main`, `applications/decoupledibpm/main.cpp` 40-73 after the settings have been read. The file of forces is opened when `init` has done the
rest (`decoupledibpm.cpp` 87-90). -/
def runDecoupled (debug : Bool) (L : Layout) (G : Geom K) (axes : ℕ → Axis K) (P : NSParams K) (flow : Option (FlowNode K)) (B : ℕ → Boundary K)
    (bodies : BodyPack K) (kernel : DeltaKernel K) (window : ℕ) (fmt : K → List Char) (vSolve fSolve pSolve : LinSolve K) (fuel : ℕ) (disk : Disk K)
    (text : TextDisk) : Option (Except Error (IBState K × Disk K × TextDisk)) :=
  match decoupledInit debug L G axes P flow B bodies kernel window with
  | .error e => some (.error e)
  | .ok (ops, ib, s) =>
    let text := openForces P.output s.ns.ite text
    match decoupledIoInitialData L P ib s disk with
    | .error e => some (.error e)
    | .ok (s, disk) =>
      bodyLoop P fmt IBState.ns (decoupledAdvance L G P ops ib none vSolve fSolve pSolve) (decoupledWriteStep L P ib bodies) fuel s disk text

/-- `main`, `applications/ibpm/main.cpp` 39-72 after the settings have been read. -/
def runCoupled (debug : Bool) (L : Layout) (G : Geom K) (axes : ℕ → Axis K) (P : NSParams K) (flow : Option (FlowNode K)) (B : ℕ → Boundary K)
    (bodies : BodyPack K) (kernel : DeltaKernel K) (window : ℕ) (fmt : K → List Char) (vSolve pSolve : LinSolve K) (fuel : ℕ) (disk : Disk K)
    (text : TextDisk) : Option (Except Error (NSState K × Disk K × TextDisk)) :=
  match ibpmInit debug L G axes P flow B bodies kernel window with
  | .error e => some (.error e)
  | .ok ((ops, _), s) =>
    let text := openForces P.output s.ite text
    match ibpmIoInitialData L P (nestCounts L bodies) (bodies.nPts * bodies.dim) s disk with
    | .error e => some (.error e)
    | .ok (s, disk) =>
      bodyLoop P fmt id (ibpmAdvance L G P (nestCounts L bodies) ops vSolve pSolve) (ibpmWriteStep L P (nestCounts L bodies) bodies) fuel s disk text

/-- `while (!solver.finished()) { solver.advance(); solver.write(); }`, `examples/api_examples/oscillatingcylinder2dRe100_GPU/main.cpp` 35-41, for a
solver with prescribed motion; at most `fuel` iterations, `none` if the loop is still running. -/
def rigidLoop (P : NSParams K) (advance : RigidState K → Except Error (RigidState K))
    (write : RigidState K → Disk K → TextDisk → Except Error (Disk K × TextDisk)) :
    ℕ → RigidState K → Disk K → TextDisk → Option (Except Error (RigidState K × Disk K × TextDisk))
  | fuel, s, disk, text =>
    if finished P s.ns then some (.ok (s, disk, text))
    else match fuel with
      | 0 => none
      | fuel + 1 =>
        match advance s with
        | .error e => some (.error e)
        | .ok s =>
          match write s disk text with
          | .error e => some (.error e)
          | .ok (disk, text) => rigidLoop P advance write fuel s disk text

/-- `main`, `examples/api_examples/oscillatingcylinder2dRe100_GPU/main.cpp` 16-49 after the settings have been read, for any motion `M`. The file of
forces is opened in `DecoupledIBPMSolver::init` (`decoupledibpm.cpp` 87-90). `names` are the names of the bodies. -/
def runRigid (debug : Bool) (L : Layout) (G : Geom K) (axes : ℕ → Axis K) (P : NSParams K) (flow : Option (FlowNode K)) (B : ℕ → Boundary K)
    (bodies : BodyPack K) (names : List String) (M : Motion K) (kernel : DeltaKernel K) (window : ℕ) (fmt : K → List Char)
    (vSolve fSolve pSolve : LinSolve K) (fuel : ℕ) (disk : Disk K) (text : TextDisk) : Option (Except Error (RigidState K × Disk K × TextDisk)) :=
  match rigidInit debug L G axes P flow B bodies kernel window with
  | .error e => some (.error e)
  | .ok (ops, s) =>
    let text := openForces P.output s.ns.ite text
    match rigidIoInitialData L P fmt names s disk text with
    | .error e => some (.error e)
    | .ok (s, disk, text) =>
      rigidLoop P (rigidAdvance debug L G axes P ops M kernel window vSolve fSolve pSolve) (rigidWriteStep L P fmt names) fuel s disk text

end PetIBM
