/-
From the sections of the configuration to the mesh and boundary objects.
-/
import Verif.Model.MeshInit
import Verif.Model.Parser

namespace PetIBM

variable {K : Type} [Field K] [LinearOrder K]

/-- The fields and directions for which `CartesianMesh` has lines. (`src/mesh/cartesianmesh.cpp` 81-132) -/
def fieldDirs : List (ℕ × ℕ) := (List.range 5).flatMap fun f => (List.range 3).map fun d => (f, d)

/-- `CartesianMesh::init`, `src/mesh/cartesianmesh.cpp` 69-132, without the file of lines for `printInfo`. `mesh` and `flow` are the sections of the
configuration; the size of a missing section throws (`src/parser/parser.cpp` 250). `nProc` is the process grid that PETSc chooses for the pressure
(565-568), which the other fields then use; PETSc refuses a grid that is finer than the points of one of the fields. The arrays have three directions
(141-161). For less than two dimensions `createSingleDMDA` creates no object (500-525) and PETSc refuses to set it up. -/
def cartesianMeshInit (nProc : ℕ → ℕ) (mesh : Option (List (AxisNode K))) (flow : Option (Option (List (BCNode K)))) :
    Except Error (Layout × Geom K × (ℕ → Axis K)) :=
  match mesh with
  | none => .error .exception
  | some nodes => do
    let (dim, m) ← parseMesh nodes
    let T ← parseBCs flow
    let periodic ← checkPeriodicBC fun f b => (T f b).1
    let axes : ℕ → Axis K := fun d => ⟨m.bg d, m.ed d, m.dL d⟩
    if 3 < dim then .error .ub
    else
      let _ ← fieldDirs.mapM fun p => fieldAxis dim axes periodic p.1 p.2
      let L := meshLayout dim axes periodic nProc
      if dim < 2 then .error .argWrong
      else if fieldDirs.any fun p => decide (p.1 < dim ∨ p.1 = 3) && decide (L.n p.1 p.2 < nProc p.2) then .error .argOutOfRange
      else return (L, meshGeom dim axes periodic, axes)

/-- A constructor that calls `init` and ignores its error code: exceptions leave it, undefined behaviour remains undefined, but after an error code the
program goes on with the object whose `init` stopped half-way (`none`). (Widths that are not numbers are not followed.) (for example `src/mesh/cartesianmesh.cpp` 30-33) -/
def ignoringCode {α : Type} : Except Error α → Except Error (Option α)
  | .ok x => .ok (some x)
  | .error .exception => .error .exception
  | .error .ub => .error .ub
  | .error .notANumber => .error .notANumber
  | .error _ => .ok none

/-- `createMesh`, `src/mesh/mesh.cpp` 86-94, with the constructor, `src/mesh/cartesianmesh.cpp` 30-33. -/
def createMesh (nProc : ℕ → ℕ) (mesh : Option (List (AxisNode K))) (flow : Option (Option (List (BCNode K)))) :
    Except Error (Option (Layout × Geom K × (ℕ → Axis K))) :=
  ignoringCode (cartesianMeshInit nProc mesh flow)

/-- `createBoundary` on rank `r`, `src/boundary/boundary.cpp` 41-49, with the constructor and `BoundarySimple::init`,
`src/boundary/boundarysimple.cpp` 19-68. -/
def createBoundary (debug : Bool) (L : Layout) (G : Geom K) (flow : Option (Option (List (BCNode K)))) (r : ℕ) : Except Error (Option (Boundary K)) :=
  ignoringCode do
    let T ← parseBCs flow
    boundaryInit debug L G r T

/-- The loops of `BoundarySimple::setGhostICs`, `src/boundary/boundarysimple.cpp` 71-89: an object whose `init` stopped has empty pointers, which the
loops follow. -/
def boundarySetGhostICs (B : Option (Boundary K)) (q : ℤ → K) : Except Error (Boundary K) :=
  match B with
  | some B => .ok (B.setGhostICs q)
  | none => .error .ub

/-- The objects for mesh and boundaries in `NavierStokesSolver::init`, `applications/navierstokes/navierstokes.cpp` 125-132, on all processes; `none` if
the mesh object is not complete. -/
def setUp (debug : Bool) (nProc : ℕ → ℕ) (mesh : Option (List (AxisNode K))) (flow : Option (Option (List (BCNode K)))) :
    Except Error (Option (Layout × Geom K × (ℕ → Axis K) × List (Option (Boundary K)))) := do
  match ← createMesh nProc mesh flow with
  | none => return none
  | some (L, G, axes) =>
    let bs ← (List.range L.mpiSize).mapM (createBoundary debug L G flow)
    return some (L, G, axes, bs)

end PetIBM
