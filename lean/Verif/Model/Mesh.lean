/-
Geometry of the Cartesian mesh: coordinates and cell widths of pressure, vertex and velocity points.
Real numbers are elements of an arbitrary linearly ordered field `K`.
-/
import Verif.Model.Index
import Mathlib.Algebra.Order.Field.Basic

namespace PetIBM

variable {K : Type*} [Field K]

/-- `std::partial_sum` (used in `src/mesh/cartesianmesh.cpp` 146 and 190). -/
def partialSumFrom (acc : K) : List K → List K
  | [] => []
  | x :: xs => (acc + x) :: partialSumFrom (acc + x) xs

/-- `std::partial_sum` starting from zero. (`src/mesh/cartesianmesh.cpp` 146, 190) -/
def partialSum (l : List K) : List K := partialSumFrom 0 l

/-- `std::adjacent_difference(..., f)` with previous element `y`: applies `f x_i x_{i-1}`. (`src/mesh/cartesianmesh.cpp` 245) -/
def adjacentFrom (f : K → K → K) (y : K) : List K → List K
  | [] => []
  | x :: xs => f x y :: adjacentFrom f x xs

/-- `std::adjacent_difference(..., f)`; the first element is copied (line 244). (`src/mesh/cartesianmesh.cpp`) -/
def adjacentDifference (f : K → K → K) : List K → List K
  | [] => []
  | x :: xs => x :: adjacentFrom f x xs

/-- One direction of the mesh as delivered by the parser: `min[d]`, `max[d]` and `dLTrue[3][d]`. (`include/petibm/mesh.h` 71-77) -/
structure Axis (K : Type*) where
  min : K
  max : K
  dL : List K

/-- One direction of one field: number of points, arrays `coordTrue[f][d]` and `dLTrue[f][d]`, and the index
of the array element that `coord[f][d]`/`dL[f][d]` point to (1 with ghost points, 0 without). (`include/petibm/mesh.h` 77-87) -/
structure FieldAxis (K : Type*) where
  n : ℕ
  coordTrue : List K
  dLTrue : List K
  shift : ℕ

/-- Access `a[i]` through a pointer to element `shift` of an array; outside the array it is undefined. (`include/petibm/mesh.h` 84-87) -/
def ptrAt (a : List K) (shift : ℕ) (i : ℤ) : Except Error K :=
  if 0 ≤ i + shift then
    match a[(i + shift).toNat]? with
    | some x => .ok x
    | none => .error .ub
  else .error .ub

/-- `coord[f][d][i]`. (`include/petibm/mesh.h` 84) -/
def FieldAxis.coord (a : FieldAxis K) (i : ℤ) : Except Error K := ptrAt a.coordTrue a.shift i

/-- `dL[f][d][i]`. (`include/petibm/mesh.h` 87) -/
def FieldAxis.dL (a : FieldAxis K) (i : ℤ) : Except Error K := ptrAt a.dLTrue a.shift i

/-- `createPressureMesh`, one direction, `src/mesh/cartesianmesh.cpp` 141-161 (`n[3][i]` is the length of
`dLTrue[3][i]`, which `C10_cells` proves for the parser). -/
def pressureAxis (a : Axis K) : FieldAxis K where
  n := a.dL.length
  coordTrue := List.zipWith (fun s w => s + a.min - 1 / 2 * w) (partialSum a.dL) a.dL
  dLTrue := a.dL
  shift := 0

/-- `createVertexMesh`, one direction, `src/mesh/cartesianmesh.cpp` 183-199. Element 0 of the resized array is
still the 0.0 of line 92. Vertices have no widths; `dLTrue[4][i]` keeps the initial value of line 94. -/
def vertexAxis (a : Axis K) : FieldAxis K where
  n := a.dL.length + 1
  coordTrue := (0 :: partialSum a.dL).map (· + a.min)
  dLTrue := [1]
  shift := 0

/-- The lambda of lines 236-239. (`src/mesh/cartesianmesh.cpp`) -/
def halfSum (x y : K) : K := 1 / 2 * (x + y)

/-- `createVelocityMesh` for `dir == comp`, `src/mesh/cartesianmesh.cpp` 223-285. `front()`/`back()`/`[0]` on an
empty array of pressure widths is undefined. -/
def normalAxis (periodic : Bool) (a : Axis K) : Except Error (FieldAxis K) :=
  match a.dL.head?, a.dL.getLast? with
  | some front, some back =>
    let coord := (vertexAxis a).coordTrue
    let adj := adjacentDifference halfSum a.dL
    if periodic then
      -- 252-276
      let last := halfSum front back
      let d := (adj ++ [last]).set 0 last
      match d[1]? with
      | some d1 => .ok { n := a.dL.length - 1 + 1, coordTrue := coord ++ [a.max + front], dLTrue := d ++ [d1], shift := 1 }
      | none => .error .ub
    else
      -- 281-284
      .ok { n := a.dL.length - 1, coordTrue := coord, dLTrue := adj ++ [back], shift := 1 }
  | _, _ => .error .ub

/-- `createVelocityMesh` for `dir != comp`, `src/mesh/cartesianmesh.cpp` 288-331. -/
def tangentAxis (periodic : Bool) (a : Axis K) : Except Error (FieldAxis K) :=
  match a.dL.head?, a.dL.getLast? with
  | some front, some back =>
    let c := (pressureAxis a).coordTrue
    if periodic then
      -- 307-318
      .ok { n := a.dL.length, coordTrue := (a.min - back / 2) :: c ++ [a.max + front / 2],
            dLTrue := back :: a.dL ++ [front], shift := 1 }
    else
      -- 319-330
      .ok { n := a.dL.length, coordTrue := (a.min - front / 2) :: c ++ [a.max + back / 2],
            dLTrue := front :: a.dL ++ [back], shift := 1 }
  | _, _ => .error .ub

/-- A direction that a 2D mesh does not have: `init` lines 89-95 and `createVelocityMesh` 339-352. (`src/mesh/cartesianmesh.cpp`) -/
def flatAxis : FieldAxis K where
  n := 1
  coordTrue := [0]
  dLTrue := [1]
  shift := 0

/-- Direction `d` of field `f` (0-2 velocity, 3 pressure, 4 vertices) after `init`,
`src/mesh/cartesianmesh.cpp` 69-121. -/
def fieldAxis (dim : ℕ) (axes : ℕ → Axis K) (periodic : ℕ → ℕ → Bool) (f d : ℕ) : Except Error (FieldAxis K) :=
  if f < 3 then
    if f < dim ∧ d < dim then
      if d = f then normalAxis (periodic f d) (axes d) else tangentAxis (periodic f d) (axes d)
    else .ok flatAxis
  else if d < dim then
    if f = 3 then .ok (pressureAxis (axes d)) else .ok (vertexAxis (axes d))
  else .ok flatAxis

end PetIBM
