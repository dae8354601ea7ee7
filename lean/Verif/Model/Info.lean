/-
What the objects print about themselves: `createInfoString` and `printInfo` of mesh, bodies and solution, and `io::print`.
-/
import Verif.Model.Boundary
import Verif.Model.Body
import Verif.Model.Solution
import Verif.Model.LinSolver

namespace PetIBM

variable {K : Type}

/-- `printf` with a format and no further argument: `%%` gives a percent sign, every other conversion takes an argument that is not there, which is
undefined. (`src/io/io.cpp` 126, where the text is the format) -/
def printf : List Char → Except Error (List Char)
  | [] => .ok []
  | c :: t =>
    if c = '%' then
      match t with
      | '%' :: u => do
        let rest ← printf u
        return '%' :: rest
      | _ => .error .ub
    else do
      let rest ← printf t
      return c :: rest

/-- `io::print`, `src/io/io.cpp` 120-135, called by all processes: `infos` are their texts in the order of the ranks, in which
`PetscSynchronizedFlush` prints them; at the end process 0 prints a newline. -/
def ioPrint (infos : List (List Char)) : Except Error (List Char) := do
  let texts ← infos.mapM printf
  return texts.flatten ++ ['\n']

/-- Lines written to a `std::stringstream`, each with `std::endl`. (`src/mesh/cartesianmesh.cpp` 364-407) -/
def stream (l : List (List Char)) : List Char := l.flatMap fun s => s ++ ['\n']

/-- `ss << n` for an integer that is not negative. (`src/mesh/cartesianmesh.cpp` 385) -/
def showNat (n : ℕ) : List Char := (toString n).toList

/-- `std::string(80, '=')`. (`src/mesh/cartesianmesh.cpp` 368) -/
def ruler : List Char := List.replicate 80 '='

/-- `n[f][0] x n[f][1] …`, `src/mesh/cartesianmesh.cpp` 385-387, 392-394. -/
def showSizes (dim : ℕ) (n : ℕ → ℕ) : List Char :=
  showNat (n 0) ++ (List.range (dim - 1)).flatMap fun i => " x ".toList ++ showNat (n (i + 1))

/-- `[bg, ed)`. (`src/mesh/cartesianmesh.cpp` 420) -/
def showRange (a b : ℕ) : List Char := '[' :: (showNat a ++ (',' :: ' ' :: (showNat b ++ [')'])))

/-- `[min, max]`; `fmt` prints a number. (`src/mesh/cartesianmesh.cpp` 376) -/
def showInterval (fmt : K → List Char) (a b : K) : List Char := '[' :: (fmt a ++ (',' :: ' ' :: (fmt b ++ [']'])))

/-- The header of `CartesianMesh::createInfoString`, `src/mesh/cartesianmesh.cpp` 366-401. `lo` and `hi` are the members `min` and `max`. -/
def meshHeader (fmt : K → List Char) (L : Layout) (lo hi : ℕ → K) : List (List Char) :=
  [ruler, "Cartesian Staggered Grid:".toList, ruler,
    "\tDimension: ".toList ++ showNat L.dim, [],
    "\tDomain Range: ".toList ++ (showInterval fmt (lo 0) (hi 0) ++ ("; ".toList ++ (showInterval fmt (lo 1) (hi 1) ++
      if L.dim = 3 then "; ".toList ++ showInterval fmt (lo 2) (hi 2) else []))), [],
    "\tNumber of Cells (Nx x Ny".toList ++ ((if L.dim = 2 then [] else " x Nz".toList) ++ "):".toList),
    "\t\tPressure Grid: ".toList ++ showSizes L.dim (L.n 3)] ++
  (List.range L.dim).map (fun f => "\t\t".toList ++ ((fd2str f).toList ++ ("-Velocity Grid: ".toList ++ showSizes L.dim (L.n f)))) ++
  [[], "\tGrid Decomposition:".toList,
    "\t\tMPI Processes: ".toList ++ (showNat (L.nProc 0) ++ (" x ".toList ++ (showNat (L.nProc 1) ++ (" x ".toList ++ showNat (L.nProc 2)))))]

/-- The three ranges of a field. (`src/mesh/cartesianmesh.cpp` 420-423, 428-431) -/
def showBox (L : Layout) (f r : ℕ) : List Char :=
  showRange (L.bg f r 0) (L.ed f r 0) ++ (", ".toList ++ (showRange (L.bg f r 1) (L.ed f r 1) ++
    (", ".toList ++ (showRange (L.bg f r 2) (L.ed f r 2) ++ " ".toList))))

/-- `CartesianMesh::addLocalInfoString`, `src/mesh/cartesianmesh.cpp` 412-435. -/
def meshLocal (L : Layout) (r : ℕ) : List (List Char) :=
  ["\t\tRank ".toList ++ (showNat r ++ ": ".toList), "\t\t\tPressure Grid: ".toList ++ showBox L 3 r] ++
  (List.range L.dim).map fun f => "\t\t\t".toList ++ ((fd2str f).toList ++ ("-Velocity Grid: ".toList ++ showBox L f r))

/-- `CartesianMesh::createInfoString` on rank `r`, `src/mesh/cartesianmesh.cpp` 358-409. -/
def meshInfo (fmt : K → List Char) (L : Layout) (lo hi : ℕ → K) (r : ℕ) : List Char :=
  stream ((if r = 0 then meshHeader fmt L lo hi else []) ++ meshLocal L r ++ [[]])

/-- `MeshBase::printInfo`, `src/mesh/mesh.cpp` 75-83. -/
def meshPrint (fmt : K → List Char) (L : Layout) (lo hi : ℕ → K) : Except Error (List Char) :=
  ioPrint ((List.range L.mpiSize).map (meshInfo fmt L lo hi))

/-- The header of `SingleBodyPoints::createInfoString`, `src/body/singlebodypoints.cpp` 129-143. -/
def bodyHeader (name path : List Char) (b : SingleBody K) : List (List Char) :=
  [ruler, "Body ".toList ++ (name ++ ":".toList), ruler, "\tInput mesh file: ".toList ++ path, [],
    "\tDimension: ".toList ++ showNat b.dim, [], "\tTotal number of Lagrangian points: ".toList ++ showNat b.nPts, [],
    "\tBody is distributed to ".toList ++ (showNat b.mpiSize ++ " processes".toList), [], "\tDistribution of Lagrangian points:".toList, []]

/-- `SingleBodyPoints::createInfoString` on rank `r`, `src/body/singlebodypoints.cpp` 121-154; `edPt` is `bgPt + nLclPts` (line 77). -/
def bodyInfo (name path : List Char) (b : SingleBody K) (r : ℕ) : List Char :=
  stream ((if r = 0 then bodyHeader name path b else []) ++
    ["\t\tRank ".toList ++ (showNat r ++ ":".toList), "\t\t\tNumber of points: ".toList ++ showNat (b.nLclPts r),
      "\t\t\tRange of points: ".toList ++ showRange (b.bgPt r) (b.bgPt r + b.nLclPts r)])

/-- `SingleBodyBase::printInfo`, `src/body/singlebody.cpp` 72-81. -/
def bodyPrint (name path : List Char) (b : SingleBody K) : Except Error (List Char) :=
  ioPrint ((List.range b.mpiSize).map (bodyInfo name path b))

/-- `BodyPackBase::createInfoString` on rank `r`, `src/body/bodypack.cpp` 174-193. On the other ranks `info` stays empty. -/
def packInfo (names : List (List Char)) (P : BodyPack K) (r : ℕ) : List Char :=
  if r = 0 then
    stream [ruler, "Body Pack:".toList, ruler, "\tDimension: ".toList ++ showNat P.dim, [],
      "\tNumber of bodies: ".toList ++ showNat P.bodies.length, [],
      "\tName of bodies: ".toList ++ '[' :: (names.flatMap (fun n => n ++ ", ".toList) ++ [']'])]
  else []

/-- `BodyPackBase::printInfo`, `src/body/bodypack.cpp` 195-209. `labels` are the names and the paths of the bodies. -/
def packPrint (labels : List (List Char × List Char)) (P : BodyPack K) : Except Error (List Char) := do
  let head ← ioPrint ((List.range P.mpiSize).map (packInfo (labels.map Prod.fst) P))
  let texts ← (labels.zip P.bodies).mapM fun x => bodyPrint x.1.1 x.1.2 x.2
  return head ++ texts.flatten

/-- `SolutionSimple::createInfoString` on rank `r`, `src/solution/solutionsimple.cpp` 60-87; `UN` and `pN` are the sizes of the two vectors. -/
def solutionInfo (L : Layout) (r : ℕ) : List Char :=
  stream (if r = 0 then
    [ruler, "Solution Vectors:".toList, ruler, "\tDimension: ".toList ++ showNat L.dim, [],
      "\tLength of Global Packed Velocity Vector: ".toList ++ showNat L.UN, [],
      "\tLength of Global Pressure Vector: ".toList ++ showNat L.pN, []]
  else [])

/-- `SolutionBase::printInfo`, `src/solution/solution.cpp` 53-62. -/
def solutionPrint (L : Layout) : Except Error (List Char) := ioPrint ((List.range L.mpiSize).map (solutionInfo L))

/-- `LinSolverBase::printInfo`, `src/linsolver/linsolver.cpp` 28-46. Here the text is the argument of the format `%s`. -/
def solverPrint (s : SolverObject K) : List Char :=
  stream [ruler, "Linear Solver ".toList ++ (s.name.toList ++ ":".toList), ruler, "\tType: ".toList ++ s.type.toList, [],
    "\tConfig file: ".toList ++ s.config.toList, []]

end PetIBM
