/-
Grid files and the XDMF files that describe them (`CartesianMesh::write`, `applications/createxdmf/main.cpp`).
-/
import Verif.Model.PostProcess
import Verif.Model.Vorticity

namespace PetIBM

variable {K : Type} [Field K]

/-- `fd2str`, `src/misc/type.cpp` 24-25, with the vertices. -/
def gridName (f : ℕ) : String :=
  if f = 0 then "u" else if f = 1 then "v" else if f = 2 then "w" else if f = 3 then "p" else "vertex"

/-- `dir2str`, `src/misc/type.cpp` 18. -/
def dirName (d : ℕ) : String := if d = 0 then "x" else if d = 1 then "y" else "z"

/-- `{"x", "y", "z"}`. (`applications/createxdmf/main.cpp` 128-270) -/
def dirNames : List String := ["x", "y", "z"]

/-- One pass of the loop of `CartesianMesh::write`, `src/mesh/cartesianmesh.cpp` 809-817: `n[f][d]` numbers from the pointer `coord[f][d]`
(so without ghost points) for every direction. A group `g` is the prefix `/g/` of its data sets. -/
def gridWriteField (L : Layout) (G : Geom K) (path : String) (disk : Disk K) (fm : ℕ × FileMode) : Disk K :=
  writeHDF5Vecs disk path ("/" ++ gridName fm.1 ++ "/") dirNames
    ((List.range 3).map fun d => (List.range (L.n fm.1 d)).map fun i : ℕ => G.coord fm.1 d i) fm.2

/-- `CartesianMesh::write`, `src/mesh/cartesianmesh.cpp` 797-823 (on process 0): the first field starts a new file. -/
def gridWrite (L : Layout) (G : Geom K) (disk : Disk K) (path : String) : Disk K :=
  [(0, .write), (1, .append), (2, .append), (3, .append), (4, .append)].foldl (gridWriteField L G path) disk

/-- The coordinates of the vorticity fields, appended to the grid file: `main` of `applications/vorticity/main.cpp` 97-107. -/
def gridAppendVorticity (L : Layout) (G : Geom K) (disk : Disk K) (path : String) : Disk K :=
  ((vorticityNames L.dim).zipIdx).foldl (fun disk nf => writeHDF5Vecs disk path ("/" ++ nf.1 ++ "/") dirNames
    ((List.range 3).map fun d => (List.range (vorticityCount L.toMeshInfo nf.2 d)).map fun i : ℕ => vorticityCoord L.dim G nf.2 d i) .append) disk

/-- What an XDMF file refers to. (`applications/createxdmf/main.cpp` 128-270) -/
structure Xdmf where
  /-- Path of the file. -/
  path : String
  /-- The entities `Nx`, `Ny`, `Nz`: topology, and dimensions of all data items. -/
  size : List ℕ
  /-- File and data set with the coordinates of the nodes in each direction; `none` for the literal `0.0`. -/
  geometry : List (Option (String × String))
  /-- Step, file and data set of the attribute. -/
  data : List (ℤ × String × String)

/-- `writeSingleXDMF`, `applications/createxdmf/main.cpp` 128-270. `steps` are the steps that the loop of line 220 visits (`toolSteps`). Simplification:
the references of the file instead of its text; the entity `CaseDir` is the directory of the file itself. -/
def writeSingleXDMF (output name : String) (dim : ℕ) (n : List ℕ) (steps : List ℤ) : Xdmf where
  path := output ++ "/" ++ name ++ ".xmf"
  size := n
  geometry := ((List.range dim).map fun d => some (output ++ "/grid.h5", "/" ++ name ++ "/" ++ dirName d)) ++ if dim = 2 then [none] else []
  data := steps.map fun t => (t, xdmfPath output t, "/" ++ name)

/-- `mesh->n[f]`. (`applications/createxdmf/main.cpp` 128-270) -/
def sizes (L : Layout) (f : ℕ) : List ℕ := [L.n f 0, L.n f 1, L.n f 2]

/-- `main` of `applications/createxdmf/main.cpp`, lines 77-117: the files in the order in which they are written. -/
def createXdmf (L : Layout) (output : String) (steps : List ℤ) : List Xdmf :=
  [writeSingleXDMF output "u" L.dim (sizes L 0) steps,
   writeSingleXDMF output "v" L.dim (sizes L 1) steps,
   writeSingleXDMF output "p" L.dim (sizes L 3) steps,
   writeSingleXDMF output "wz" L.dim [L.n 4 0, L.n 4 1, L.n 3 2] steps] ++
  if L.dim = 3 then
    [writeSingleXDMF output "w" L.dim (sizes L 2) steps,
     writeSingleXDMF output "wx" L.dim [L.n 3 0, L.n 4 1, L.n 4 2] steps,
     writeSingleXDMF output "wy" L.dim [L.n 4 0, L.n 3 1, L.n 4 2] steps]
  else []

end PetIBM
