/-
Moving bodies: what `RigidKinematicsSolver` writes (`applications/rigidkinematics`), body files (`SingleBodyPoints::writeBody`) and the
oscillating cylinder (`examples/api_examples/oscillatingcylinder2dRe100_GPU`).
-/
import Verif.Model.Ibpm
import Mathlib.Analysis.SpecialFunctions.Trigonometric.Basic

namespace PetIBM

/-- The text files on the disk. (`applications/decoupledibpm/decoupledibpm.cpp` 383-417) -/
abbrev TextDisk := String → Option TextFile

variable {K : Type}

/-- The file of forces of a run, `applications/decoupledibpm/decoupledibpm.cpp` 87-90, `applications/ibpm/ibpm.cpp` 70-73; `ite` is the step at
which the run starts. -/
def forcesPath (output : String) (ite : ℤ) : String := output ++ "/forces-" ++ toString ite ++ ".txt"

/-- One line of the file of forces, `applications/decoupledibpm/decoupledibpm.cpp` 436-448, `applications/ibpm/ibpm.cpp` 406-418: every number
is followed by a tab; `fmt` is `printf("%10.8e")`. -/
def forcesLine (fmt : K → List Char) (t : K) (avg : List (List K)) : List Char := (t :: avg.flatten).flatMap fun x => fmt x ++ ['\t']

/-- The viewer of the forces is opened with `FILE_MODE_WRITE` in `init` (lines as in `forcesPath`): an older file is emptied. (`applications/decoupledibpm/decoupledibpm.cpp` 87-90) -/
def openForces (output : String) (ite : ℤ) (text : TextDisk) : TextDisk := Function.update text (forcesPath output ite) (some ⟨[], true⟩)

/-- `PetscViewerASCIIPrintf` of a line to the viewer of the forces. (`applications/decoupledibpm/decoupledibpm.cpp` 420-453) -/
def printForces (output : String) (ite : ℤ) (line : List Char) (text : TextDisk) : TextDisk :=
  let old := ((text (forcesPath output ite)).map TextFile.lines).getD []
  Function.update text (forcesPath output ite) (some ⟨old ++ [line], true⟩)

/-- One line of `writeBody`: the numbers with tabs between them; `fmt` is `printf("%10.8e")`. (`src/body/singlebodypoints.cpp` 252-287) -/
def bodyLine (fmt : K → List Char) (xs : List K) : List Char := List.intercalate ['\t'] (xs.map fmt)

/-- `coords[k][d]`. (`include/petibm/singlebody.h` 50) -/
def SingleBody.coordAt (b : SingleBody K) (k d : ℕ) : Except Error K :=
  match b.coords[k]? with
  | some x =>
    match x[d]? with
    | some v => .ok v
    | none => .error .ub
  | none => .error .ub

/-- `SingleBodyPoints::writeBody`, `src/body/singlebodypoints.cpp` 252-287: the content of the file. `PETSC_ERR_FILE_WRITE` is represented by
`fileRead`. -/
def SingleBody.writeBody (fmt : K → List Char) (b : SingleBody K) : Except Error TextFile :=
  if b.dim = 3 ∨ b.dim = 2 then do
    let lines ← (List.range b.nPts).mapM fun k => do
      let xs ← (List.range b.dim).mapM fun d => b.coordAt k d
      return bodyLine fmt xs
    return ⟨lines, true⟩
  else .error .fileRead

/-- The names of the bodies, `src/body/bodypack.cpp` 93-95. -/
def bodyNames (bodies : List BodyNode) : List String := bodies.mapIdx fun i b => b.name.getD ("body" ++ toString i)

/-- Path of the file of a body, `applications/rigidkinematics/rigidkinematics.cpp` 168-178. -/
def bodyPath (output name : String) (ite : ℤ) (dim : ℕ) : String := output ++ "/" ++ name ++ "_" ++ stepDigits ite ++ ("." ++ toString dim ++ "D")

/-- One pass of the loop in `writeBodies`. (`applications/rigidkinematics/rigidkinematics.cpp` 162-183) -/
def writeBodyAt (fmt : K → List Char) (output : String) (ite : ℤ) (text : TextDisk) (nb : String × SingleBody K) : Except Error TextDisk := do
  let file ← nb.2.writeBody fmt
  return Function.update text (bodyPath output nb.1 ite nb.2.dim) (some file)

/-- `RigidKinematicsSolver::writeBodies`, `applications/rigidkinematics/rigidkinematics.cpp` 162-183. `names` are the members `name` of the bodies. -/
def writeBodies (fmt : K → List Char) (output : String) (ite : ℤ) (names : List String) (P : BodyPack K) (text : TextDisk) : Except Error TextDisk :=
  (names.zip P.bodies).foldlM (writeBodyAt fmt output ite) text

section

variable [Field K] [LinearOrder K]

/-- `RigidKinematicsSolver::init`, lines 47-66. (`applications/rigidkinematics/rigidkinematics.cpp`) -/
def rigidInit (debug : Bool) (L : Layout) (G : Geom K) (axes : ℕ → Axis K) (P : NSParams K) (flow : Option (FlowNode K))
    (B : ℕ → Boundary K) (bodies : BodyPack K) (kernel : DeltaKernel K) (window : ℕ) : Except Error (NSOps K × RigidState K) := do
  let (ops, ib, s) ← decoupledInit debug L G axes P flow B bodies kernel window
  return (ops, { toIBState := s, bodies := bodies, UB := fun _ => 0, ib := ib })

/-- `RigidKinematicsSolver::ioInitialData`, lines 105-116. (`applications/rigidkinematics/rigidkinematics.cpp`) -/
def rigidIoInitialData (L : Layout) (P : NSParams K) (fmt : K → List Char) (names : List String) (s : RigidState K) (disk : Disk K) (text : TextDisk) :
    Except Error (RigidState K × Disk K × TextDisk) := do
  let (st, disk) ← decoupledIoInitialData L P s.ib s.toIBState disk
  let s := { s with toIBState := st }
  let text ← writeBodies fmt P.output s.ns.ite names s.bodies text
  return (s, disk, text)

/-- `RigidKinematicsSolver::write`, lines 84-102, with the line that `DecoupledIBPMSolver::write` prints to the file of forces
(`applications/decoupledibpm/decoupledibpm.cpp` 134-146). -/
def rigidWriteStep (L : Layout) (P : NSParams K) (fmt : K → List Char) (names : List String) (s : RigidState K) (disk : Disk K) (text : TextDisk) :
    Except Error (Disk K × TextDisk) := do
  let (disk, t, avg) ← decoupledWriteStep L P s.ib s.bodies s.toIBState disk
  let text := printForces P.output P.nstart (forcesLine fmt t avg) text
  let text ← if Int.tmod s.ns.ite P.nsave = 0 then writeBodies fmt P.output s.ns.ite names s.bodies text else pure text
  return (disk, text)

end

/-! ### The oscillating cylinder -/

/-- The members `f`, `Am` and `Um` of `OscillatingCylinderSolver`. (`examples/api_examples/oscillatingcylinder2dRe100_GPU/oscillatingcylinder.h` 58-64) -/
structure Oscillation where
  f : ℝ
  Am : ℝ
  Um : ℝ

/-- `OscillatingCylinderSolver::init`, `examples/api_examples/oscillatingcylinder2dRe100_GPU/oscillatingcylinder.cpp` 43-56 (the centre is read there
and not used). -/
noncomputable def oscillationInit (f Dc KC : Option ℝ) : Oscillation :=
  let f := f.getD 0
  let Dc := Dc.getD 1
  let KC := KC.getD 0
  let Am := Dc * KC / (2 * Real.pi)
  { f := f, Am := Am, Um := 2 * Real.pi * f * Am }

/-- New coordinates of one point, lines 79-84: the first two entries of `coords[k]` are replaced. (`examples/api_examples/oscillatingcylinder2dRe100_GPU/oscillatingcylinder.cpp`) -/
def displace (Xd Yd : ℝ) (x0 x : List ℝ) : List ℝ :=
  match x0, x with
  | a :: b :: _, _ :: _ :: rest => (a + Xd) :: (b + Yd) :: rest
  | _, x => x

/-- `OscillatingCylinderSolver` as a motion. `coordinates` is `setCoordinatesBodies`, lines 63-87, with the member `coords0` of the first body as
argument; `velocity` is `setVelocityBodies`, lines 89-111. Only the first body moves. Simplification: with more than one body `UB` is longer than
the vectors of the first body and PETSc refuses `DMDAVecGetArrayDOF`; the definition is used for one body of dimension 2 only, where the entries
of point `k` are `2 k` and `2 k + 1`. (`examples/api_examples/oscillatingcylinder2dRe100_GPU/oscillatingcylinder.cpp`) -/
noncomputable def oscillatingCylinder (O : Oscillation) (coords0 : List (List ℝ)) : Motion ℝ where
  coordinates := fun ti P =>
    let Xd := -O.Am * Real.sin (2 * Real.pi * O.f * ti)
    let Yd := 0
    { P with bodies := P.bodies.modifyHead fun b => { b with coords := List.zipWith (displace Xd Yd) coords0 b.coords } }
  velocity := fun ti P UB =>
    let Ux := -O.Um * Real.cos (2 * Real.pi * O.f * ti)
    match P.bodies with
    | [] => UB
    | b :: _ => fun i => if 0 ≤ i ∧ i < (b.nPts * 2 : ℕ) then (if i % 2 = 0 then Ux else 0) else UB i

end PetIBM
