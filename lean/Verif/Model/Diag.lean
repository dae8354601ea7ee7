/-
Diagonal matrices and the conversion between velocities and fluxes.
-/
import Verif.Model.Operators

namespace PetIBM

variable {K : Type} [Field K]

/-- Body of the loops in `createDiagMatrix`, `src/operators/creatediagmatrix.cpp` 69-80. The stencil has `c = 1` as in
the code (it plays no role). -/
def diagEntry (debug : Bool) (L : Layout) (kernel : ℕ → ℤ → ℤ → ℤ → K) (f : ℕ) (p : ℕ × ℕ × ℕ) : Except Error (Entry K) := do
  let (i, j, k) := p
  let idx ← L.getPackedGlobalIndex debug f ⟨k, j, i, 1⟩
  return ⟨idx, idx, kernel f i j k⟩

/-- `createDiagMatrix`, `src/operators/creatediagmatrix.cpp` 43-87, all ranks. -/
def createDiagMatrix (debug : Bool) (L : Layout) (kernel : ℕ → ℤ → ℤ → ℤ → K) : Except Error (Mat K) := do
  let rows ← (List.range L.mpiSize).mapM fun r => (List.range L.dim).mapM fun f => (L.box f r).mapM (diagEntry debug L kernel f)
  assemble L.UN L.UN (rows.flatMap fun a => a.flatMap id) []

/-- `createR`, `src/operators/creatediagmatrix.cpp` 90-117. -/
def createR (debug : Bool) (L : Layout) (G : Geom K) : Except Error (Mat K) :=
  createDiagMatrix debug L fun f i j k => match f with
    | 0 => G.dL 0 1 j * G.dL 0 2 k
    | 1 => G.dL 1 0 i * G.dL 1 2 k
    | _ => G.dL 2 0 i * G.dL 2 1 j

/-- `createRInv`, `src/operators/creatediagmatrix.cpp` 120-147. -/
def createRInv (debug : Bool) (L : Layout) (G : Geom K) : Except Error (Mat K) :=
  createDiagMatrix debug L fun f i j k => match f with
    | 0 => 1 / (G.dL 0 1 j * G.dL 0 2 k)
    | 1 => 1 / (G.dL 1 0 i * G.dL 1 2 k)
    | _ => 1 / (G.dL 2 0 i * G.dL 2 1 j)

/-- `createMHead`, `src/operators/creatediagmatrix.cpp` 150-177. -/
def createMHead (debug : Bool) (L : Layout) (G : Geom K) : Except Error (Mat K) :=
  createDiagMatrix debug L fun f i j k => match f with
    | 0 => G.dL 0 0 i
    | 1 => G.dL 1 1 j
    | _ => G.dL 2 2 k

/-- `createM`, `src/operators/creatediagmatrix.cpp` 180-207. -/
def createM (debug : Bool) (L : Layout) (G : Geom K) : Except Error (Mat K) :=
  createDiagMatrix debug L fun f i j k => match f with
    | 0 => G.dL 0 0 i / (G.dL 0 1 j * G.dL 0 2 k)
    | 1 => G.dL 1 1 j / (G.dL 1 0 i * G.dL 1 2 k)
    | _ => G.dL 2 2 k / (G.dL 2 0 i * G.dL 2 1 j)

/-- `createIdentity`, `src/operators/creatediagmatrix.cpp` 210-231. -/
def createIdentity (debug : Bool) (L : Layout) : Except Error (Mat K) := createDiagMatrix debug L fun _ _ _ _ => 1

/-- `SolutionSimple::convert2Velocity`, `src/solution/solutionsimple.cpp` 90-103: new content of `UGlobal`. -/
def convert2Velocity (L : Layout) (RInv : Mat K) (U : ℤ → K) : ℤ → K := RInv.mult L.UN U

/-- `SolutionSimple::convert2Flux`, `src/solution/solutionsimple.cpp` 106-119. -/
def convert2Flux (L : Layout) (R : Mat K) (U : ℤ → K) : ℤ → K := R.mult L.UN U

end PetIBM
