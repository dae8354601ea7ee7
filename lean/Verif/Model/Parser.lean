/-
Parsing of the mesh and boundary-condition sections, and the periodicity check.
-/
import Verif.Model.Mesh
import Mathlib.Algebra.Order.Group.Abs

namespace PetIBM

/-! ### Mesh section -/

/-- One entry of `subDomains` (`src/parser/parser.cpp` 341-347). -/
structure SubDomain (K : Type*) where
  cells : ℤ
  end_ : K
  stretchRatio : K

/-- One entry of the mesh section (`parseOneAxis`, `src/parser/parser.cpp` 275-296). -/
structure AxisNode (K : Type*) where
  direction : String
  start : K
  subDomains : List (SubDomain K)

variable {K : Type*} [Field K]

/-- Loop of `stretchGrid`: `dL[i] = dL[i-1] * r` (`include/petibm/misc.h` 158-159); `m` cells starting with `x`. -/
def geometric (x r : K) : ℕ → List K
  | 0 => []
  | m + 1 => x :: geometric (x * r) r m

/-- `stretchGrid`, `include/petibm/misc.h` 148-163. With `n = 0` the write to `dL[0]` is undefined; a negative `n`
makes `resize` throw; `r^n = 1` divides by zero. -/
def stretchGrid [DecidableEq K] (bg ed : K) (n : ℤ) (r : K) : Except Error (List K) :=
  if n < 0 then .error .exception
  else if n = 0 then .error .ub
  else
    let den := r ^ n.toNat - 1
    if den = 0 then .error .notANumber
    else .ok (geometric ((ed - bg) * (r - 1) / den) r n.toNat)

variable [LinearOrder K]

/-- `parseOneSubDomain`, `src/parser/parser.cpp` 334-356. A negative number of cells makes the vector constructor
throw. -/
def parseOneSubDomain (sub : SubDomain K) (bg : K) : Except Error (ℤ × K × List K) := do
  let n := sub.cells
  let ed := sub.end_
  let r := sub.stretchRatio
  if |r - 1| ≤ 1 / 10 ^ 12 then
    if n < 0 then .error .exception
    else return (n, ed, List.replicate n.toNat ((ed - bg) / (n : K)))
  else
    let dL ← stretchGrid bg ed n r
    return (n, ed, dL)

/-- `parseSubDomains`, `src/parser/parser.cpp` 298-332, as a loop over the entries with state
`(nTotal, ed, dL)`. -/
def parseSubDomainsLoop : List (SubDomain K) → ℤ × K × List K → Except Error (ℤ × K × List K)
  | [], s => .ok s
  | sub :: rest, (nTotal, ed, dL) => do
    let (nSub, ed', dLSub) ← parseOneSubDomain sub ed
    parseSubDomainsLoop rest (nTotal + nSub, ed', dL ++ dLSub)

/-- `parseSubDomains`, initial values of lines 306-312. (`src/parser/parser.cpp`) -/
def parseSubDomains (subs : List (SubDomain K)) (bg : K) : Except Error (ℤ × K × List K) :=
  parseSubDomainsLoop subs (0, bg, [])

/-- `str2dir[name]` (`src/misc/type.cpp` 15): `operator[]` gives the first enumerator for unknown names. -/
def str2dir (s : String) : ℕ :=
  if s = "x" then 0 else if s = "y" then 1 else if s = "z" then 2 else 0

/-- Result of `parseMesh`: `dim`, `min`, `max`, `n[3]`, `dLTrue[3]`. (`include/petibm/mesh.h` 68-77) -/
structure MeshData (K : Type*) where
  bg : ℕ → K
  ed : ℕ → K
  n : ℕ → ℤ
  dL : ℕ → List K

/-- Default values set in `CartesianMesh::init`, `src/mesh/cartesianmesh.cpp` 89-94. -/
def MeshData.default : MeshData K where
  bg := fun _ => 0
  ed := fun _ => 1
  n := fun _ => 1
  dL := fun _ => [1]

/-- Assignments of `parseMesh`, `src/parser/parser.cpp` 265-269. -/
def MeshData.assign (m : MeshData K) (dir : ℕ) (bg ed : K) (n : ℤ) (dL : List K) : MeshData K where
  bg := Function.update m.bg dir bg
  ed := Function.update m.ed dir ed
  n := Function.update m.n dir n
  dL := Function.update m.dL dir dL

/-- Loop of `parseMesh`, `src/parser/parser.cpp` 252-270. -/
def parseMeshLoop : List (AxisNode K) → MeshData K → Except Error (MeshData K)
  | [], m => .ok m
  | ax :: rest, m => do
    let (n, ed, dL) ← parseSubDomains ax.subDomains ax.start
    parseMeshLoop rest (m.assign (str2dir ax.direction) ax.start ed n dL)

/-- `parseMesh`, `src/parser/parser.cpp` 239-273: dimension and mesh data. -/
def parseMesh (axes : List (AxisNode K)) : Except Error (ℕ × MeshData K) := do
  let m ← parseMeshLoop axes MeshData.default
  return (axes.length, m)

/-! ### Boundary conditions -/

/-- `type::BCType`, `include/petibm/type.h` 93-100. -/
inductive BCType where
  | NOBC | PERIODIC | DIRICHLET | NEUMANN | CONVECTIVE
deriving DecidableEq, Repr

/-- `str2bl[name]` (`src/misc/type.cpp` 40-46); unknown names give enumerator 0 (XMINUS). -/
def str2bl (s : String) : ℕ :=
  if s = "left" ∨ s = "xMinus" ∨ s = "XMINUS" then 0
  else if s = "right" ∨ s = "xPlus" ∨ s = "XPLUS" then 1
  else if s = "bottom" ∨ s = "yMinus" ∨ s = "YMINUS" then 2
  else if s = "top" ∨ s = "yPlus" ∨ s = "YPLUS" then 3
  else if s = "back" ∨ s = "zMinus" ∨ s = "ZMINUS" then 4
  else if s = "front" ∨ s = "zPlus" ∨ s = "ZPLUS" then 5
  else 0

/-- `str2fd[name]` (`src/misc/type.cpp` 20-21); unknown names give enumerator 0 (u). -/
def str2fd (s : String) : ℕ :=
  if s = "u" then 0 else if s = "v" then 1 else if s = "w" then 2
  else if s = "p" then 3 else if s = "vertex" then 4 else 0

/-- `str2bt[name]` (`src/misc/type.cpp` 27-31); unknown names give enumerator 0 (NOBC). -/
def str2bt (s : String) : BCType :=
  if s = "DIRICHLET" then .DIRICHLET else if s = "NEUMANN" then .NEUMANN
  else if s = "CONVECTIVE" then .CONVECTIVE else if s = "PERIODIC" then .PERIODIC else .NOBC

/-- One map of the list `boundaryConditions`: its `location` (if present) and its other `key: [type, value]`
pairs in file order. (`src/parser/parser.cpp` 374-390) -/
structure BCNode (K : Type*) where
  location : Option String
  items : List (String × String × K)

/-- `bcTypes` and `bcValues`: 3 x 6 tables. (`src/parser/parser.cpp` 374-375) -/
abbrev BCTable (K : Type*) := ℕ → ℕ → BCType × K

/-- Initial tables, `src/parser/parser.cpp` 374-375. -/
def BCTable.empty : BCTable K := fun _ _ => (.NOBC, 0)

/-- `bcTypes[f][loc] = ..., bcValues[f][loc] = ...`, lines 385-387; the tables have three rows, so field numbers 3
and 4 write outside. (`src/parser/parser.cpp`) -/
def bcAssign (T : BCTable K) (f loc : ℕ) (t : BCType) (v : K) : Except Error (BCTable K) :=
  if f < 3 then .ok (Function.update T f (Function.update (T f) loc (t, v))) else .error .ub

/-- Inner loop of `parseBCs`, lines 381-389. (`src/parser/parser.cpp`) -/
def parseBCItems (loc : ℕ) : List (String × String × K) → BCTable K → Except Error (BCTable K)
  | [], T => .ok T
  | (key, t, v) :: rest, T =>
    if key ≠ "location" then do
      let T' ← bcAssign T (str2fd key) loc (str2bt t) v
      parseBCItems loc rest T'
    else parseBCItems loc rest T

/-- Outer loop of `parseBCs`, lines 377-390. A missing location makes `as<BCLoc>()` throw. (`src/parser/parser.cpp`) -/
def parseBCList : List (BCNode K) → BCTable K → Except Error (BCTable K)
  | [], T => .ok T
  | sub :: rest, T =>
    match sub.location with
    | none => .error .exception
    | some l => do
      let T' ← parseBCItems (str2bl l) sub.items T
      parseBCList rest T'

/-- `parseBCs`, `src/parser/parser.cpp` 359-393. `flow = none` / `bcs = none`: the key is missing. -/
def parseBCs (flow : Option (Option (List (BCNode K)))) : Except Error (BCTable K) :=
  match flow with
  | none => .error .argOutOfRange
  | some none => .error .argOutOfRange
  | some (some subs) => parseBCList subs BCTable.empty

/-! ### Periodicity check -/

/-- Body of the first double loop of `checkPeriodicBC` (`src/misc/misc.cpp` 34-60) for one field and direction. -/
def checkCounterpart (T : ℕ → ℕ → BCType) (f d : ℕ) (P : ℕ → ℕ → Bool) : Except Error (ℕ → ℕ → Bool) :=
  let p1 := decide (T f (d * 2) = .PERIODIC)
  let p2 := decide (T f (d * 2 + 1) = .PERIODIC)
  if p1 && !p2 then .error .argIncompatible
  else if !p1 && p2 then .error .argIncompatible
  else if p1 && p2 then .ok (Function.update P f (Function.update (P f) d true))
  else .ok P

/-- Generic loop over a list of pairs with a function that can fail. (`src/misc/misc.cpp` 33-60) -/
def loopPairs {α : Type*} (g : ℕ → ℕ → α → Except Error α) : List (ℕ × ℕ) → α → Except Error α
  | [], s => .ok s
  | (f, d) :: rest, s => do
    let s' ← g f d s
    loopPairs g rest s'

/-- The pairs of the loops of lines 33-36: `f` outer, `d` inner. (`src/misc/misc.cpp`) -/
def pairs3 : List (ℕ × ℕ) := (List.range 3).flatMap fun f => (List.range 3).map fun d => (f, d)

/-- Line 73: number of velocity fields periodic in direction `d`. (`src/misc/misc.cpp`) -/
def countPeriodic (P : ℕ → ℕ → Bool) (d : ℕ) : ℕ :=
  (List.range 3).foldl (fun c f => if P f d then c + 1 else c) 0

/-- `checkPeriodicBC`, `src/misc/misc.cpp` 19-83. -/
def checkPeriodicBC (T : ℕ → ℕ → BCType) : Except Error (ℕ → ℕ → Bool) := do
  -- 30-60
  let P ← loopPairs (fun f d P => checkCounterpart T f d P) pairs3 (fun _ _ => false)
  -- 62-65
  let dim := if (List.range 6).all (fun b => decide (T 2 b = .NOBC)) then 2 else 3
  -- 68-80
  if (List.range 3).any (fun d => decide (countPeriodic P d ≠ 0 ∧ countPeriodic P d ≠ dim)) then
    .error .argIncompatible
  else return P

/-- Creation of all boundaries in `BoundarySimple::init` (`src/boundary/boundarysimple.cpp` 52-65) with
`createSingleBoundary` (`src/boundary/singleboundary.cpp` 28-49): only NOBC is an error. -/
def createBoundaries (dim : ℕ) (T : ℕ → ℕ → BCType) : Except Error Unit :=
  if (List.range dim).any fun f => (List.range (dim * 2)).any fun b => decide (T f b = .NOBC) then
    .error .argWrong
  else .ok ()

end PetIBM
