/-
The solution object: initial conditions, output and input of the fields.
-/
import Verif.Model.Local

namespace PetIBM

variable {K : Type} [Field K]

/-! ### Initial conditions -/

/-- A lambdified user expression in `x, y, z, t, nu`. Simplification: SymEngine's parser and evaluator are not modelled, an
expression is the function it denotes. (`src/parser/parser.cpp` 396-443) -/
abbrev Expr (K : Type) := K → K → K → K → K → K

/-- `node["flow"]` as far as `parseICs` and `setInitialConditions` look at it; `none` for undefined keys. (`src/parser/parser.cpp` 396-443) -/
structure FlowNode (K : Type) where
  nu : Option K
  initialVelocity : Option (List (Expr K))
  initialPressure : Option (Expr K)

/-- `parseICs`, `src/parser/parser.cpp` 396-443. The result has length 4; `none` is a visitor that has never been
initialised. More than four velocity expressions are written beyond the end of the vector. -/
def parseICs (flow : Option (FlowNode K)) : Except Error (List (Option (Expr K))) :=
  match flow with
  | none => .error .argOutOfRange
  | some node =>
    match node.initialVelocity with
    | none => .error .argOutOfRange
    | some es =>
      if es.length ≤ 4 then
        let lambdas := (es.map some ++ List.replicate (4 - es.length) none)
        .ok (lambdas.set 3 (some (node.initialPressure.getD fun _ _ _ _ _ => 0)))
      else .error .ub

/-- `ICs[field].call({x, y, z, 0, nu})` at a grid point; calling a visitor that was never initialised reads an empty
vector. (`src/solution/solutionsimple.cpp` 122-226) -/
def callIC (G : Geom K) (ICs : List (Option (Expr K))) (nu : K) (f i j k : ℕ) : Except Error K :=
  match ICs[f]? with
  | some (some e) => .ok (e (G.coord f 0 i) (G.coord f 1 j) (G.coord f 2 k) 0 nu)
  | _ => .error .ub

/-- The assignments of one field on all ranks, `src/solution/solutionsimple.cpp` 183-194 and 211-221. -/
def assignIC (L : Layout) (G : Geom K) (ICs : List (Option (Expr K))) (nu : K) (f : ℕ) : Except Error (List (ℤ × K)) := do
  let a ← (List.range L.mpiSize).mapM fun r => (L.box f r).mapM fun p => do
    let idx ← L.getPackedGlobalIndex false f ⟨p.2.2, p.2.1, p.1, 0⟩
    let x ← callIC G ICs nu f p.1 p.2.1 p.2.2
    return (idx, x)
  return a.flatMap id

/-- `SolutionSimple::setInitialConditions`, `src/solution/solutionsimple.cpp` 122-226: new `UGlobal` and `pGlobal`. -/
def setInitialConditions (L : Layout) (G : Geom K) (flow : Option (FlowNode K)) (U p : ℤ → K) :
    Except Error ((ℤ → K) × (ℤ → K)) := do
  let nu ← match flow.bind (·.nu) with
    | none => .error .userInput
    | some nu => .ok nu
  let ICs ← parseICs flow
  let a ← (List.range L.dim).mapM (assignIC L G ICs nu)
  let b ← assignIC L G ICs nu 3
  return (vecAssign U (a.flatMap id), vecAssign p b)

/-! ### Files -/

/-- Content of a HDF5 file: data sets by path, and the attribute `time` of the data set `/p`. (`src/io/io.cpp` 137-166) -/
structure H5File (K : Type) where
  data : String → Option (List K)
  time : Option K

/-- A new file, `src/io/io.cpp` 149-152. -/
def H5File.empty : H5File K := ⟨fun _ => none, none⟩

/-- The files on disk. (`src/io/io.cpp` 137-166) -/
abbrev Disk (K : Type) := String → Option (H5File K)

/-- `FILE_MODE_WRITE` starts from an empty file, `FILE_MODE_APPEND` keeps the content. (`src/io/io.cpp` 149-152) -/
inductive FileMode where
  | write | append

/-- Content of a file after it has been opened. (`src/io/io.cpp` 149-152) -/
def FileMode.start (mode : FileMode) (old : Option (H5File K)) : H5File K :=
  match mode with
  | .write => H5File.empty
  | .append => old.getD H5File.empty

/-- `VecView` of one vector under its name: HDF5 data sets of this name are replaced (PETSc opens an existing data set and
overwrites it). (`src/io/io.cpp` 161) -/
def H5File.put (file : H5File K) (path : String) (v : List K) : H5File K :=
  { file with data := Function.update file.data path (some v) }

/-- `writeHDF5Vecs`, `src/io/io.cpp` 137-166. `vecs` are the entries of the vectors in the order of the file. -/
def writeHDF5Vecs (disk : Disk K) (path group : String) (names : List String) (vecs : List (List K)) (mode : FileMode) : Disk K :=
  Function.update disk path
    (some ((names.zip vecs).foldl (fun file nv => file.put (group ++ nv.1) nv.2) (mode.start (disk path))))

/-- `VecLoad` of a vector with `n` entries. (`src/io/io.cpp` 266) -/
def H5File.get (file : H5File K) (path : String) (n : ℕ) : Except Error (List K) :=
  match file.data path with
  | none => .error .fileRead
  | some v => if v.length = n then .ok v else .error .fileRead

/-- `readHDF5Vecs`, `src/io/io.cpp` 242-272, for vectors of the lengths `sizes`. -/
def readHDF5Vecs (disk : Disk K) (path group : String) (names : List String) (sizes : List ℕ) : Except Error (List (List K)) :=
  match disk path with
  | none => .error .fileRead
  | some file => (names.zip sizes).mapM fun ns => file.get (group ++ ns.1) ns.2

/-- The grid points of field `f` in natural order. (`src/solution/solutionsimple.cpp` 229-259) -/
def gridList (M : MeshInfo) (f : ℕ) : List (ℕ × ℕ × ℕ) :=
  (List.range (M.n f 2)).flatMap fun k => (List.range (M.n f 1)).flatMap fun j => (List.range (M.n f 0)).map fun i => (i, j, k)

/-- The packed indices of field `f` in natural order. (`src/solution/solutionsimple.cpp` 229-259) -/
def naturalOrder (L : Layout) (f : ℕ) : Except Error (List ℤ) :=
  (gridList L.toMeshInfo f).mapM fun p => L.getPackedGlobalIndex false f ⟨p.2.2, p.2.1, p.1, 0⟩

/-- `fd2str`, `src/misc/type.cpp` 23-25. -/
def fd2str (f : ℕ) : String := if f = 0 then "u" else if f = 1 then "v" else if f = 2 then "w" else "p"

/-- `SolutionSimple::write`, `src/solution/solutionsimple.cpp` 229-259. Vectors of a DMDA are written in natural order. -/
def solutionWrite (L : Layout) (U p : ℤ → K) (disk : Disk K) (path : String) : Except Error (Disk K) := do
  let names := (List.range L.dim).map fd2str ++ ["p"]
  let vecs ← (List.range L.dim).mapM fun f => do return (← naturalOrder L f).map U
  let pv := (← naturalOrder L 3).map p
  return writeHDF5Vecs disk path "/" names (vecs ++ [pv]) .write

/-- `SolutionSimple::read`, `src/solution/solutionsimple.cpp` 262-292. -/
def solutionRead (L : Layout) (U p : ℤ → K) (disk : Disk K) (path : String) : Except Error ((ℤ → K) × (ℤ → K)) := do
  let names := (List.range L.dim).map fd2str ++ ["p"]
  let idx ← (List.range L.dim).mapM fun f => naturalOrder L f
  let pidx ← naturalOrder L 3
  let vecs ← readHDF5Vecs disk path "/" names ((idx ++ [pidx]).map (·.length))
  return (((idx.zip vecs).foldl (fun q iv => vecAssign q (iv.1.zip iv.2)) U),
    match vecs.getLast? with
    | some v => vecAssign p (pidx.zip v)
    | none => p)

end PetIBM
