/-
The raw delta operator between grid and bodies (`src/operators/createdelta.cpp`).
-/
import Verif.Model.Kernel
import Verif.Model.Body
import Verif.Model.Boundary
import Verif.Model.Matrix

namespace PetIBM

variable {K : Type} [Field K] [LinearOrder K]

/-- `mesh->coord[f][d][s]`, with the bounds of the array. (`src/operators/createdelta.cpp` 188-203) -/
def meshCoord (L : Layout) (axes : ℕ → Axis K) (f d : ℕ) (s : ℤ) : Except Error K := do
  let A ← fieldAxis L.dim axes L.periodic f d
  A.coord s

/-- `mesh->dL[f][d][s]`, with the bounds of the array. (`src/operators/createdelta.cpp` 76) -/
def meshWidth (L : Layout) (axes : ℕ → Axis K) (f d : ℕ) (s : ℤ) : Except Error K := do
  let A ← fieldAxis L.dim axes L.periodic f d
  A.dL s

/-- The body of the loop over `s` of `getEulerianNeighbors`, `src/operators/createdelta.cpp` 185-203: what is appended to
`ijk[d]` and `xyz[d]`. -/
def eulerianNeighbor (L : Layout) (axes : ℕ → Axis K) (dof d : ℕ) (periodic : Bool) (s : ℤ) :
    Except Error (List (ℤ × K)) :=
  -- 185-189
  if s ≥ 0 ∧ s < L.n dof d then do
    let x ← meshCoord L axes dof d s
    return [(s, x)]
  else if periodic then do
    let len := (axes d).max - (axes d).min
    let x ← meshCoord L axes dof d s
    -- 193-202
    if s < 0 then return [(s + L.n dof d, x - len)]
    else return [(s - L.n dof d, x + len)]
  else return []

/-- `getEulerianNeighbors` in direction `d`, lines 181-205: the pairs of `ijk[d]` and `xyz[d]`. (`src/operators/createdelta.cpp`) -/
def eulerianNeighbors (L : Layout) (axes : ℕ → Axis K) (dof d : ℕ) (I : ℤ) (periodic : Bool) (window : ℕ) :
    Except Error (List (ℤ × K)) := do
  let parts ← (List.range (2 * window + 1)).mapM fun o : ℕ =>
    eulerianNeighbor L axes dof d periodic (I - window + o)
  return parts.flatten

/-- `periodic[d]` of `createDelta`, line 50, on one process: the type of boundary number `d` of the x-component. (`src/operators/createdelta.cpp`) -/
def deltaPeriodic (B : Boundary K) (d : ℕ) : Except Error Bool :=
  match B[0]? with
  | some l =>
    match l[d]? with
    | some b => .ok (b.type = .PERIODIC)
    | none => .error .ub
  | none => .error .ub

/-- The entries of one row, lines 103-156: columns and values in the order in which they are appended. (`src/operators/createdelta.cpp`) -/
def deltaRow (debug : Bool) (L : Layout) (kernel : DeltaKernel K) (XYZ widths : List K) (dof : ℕ) (row : ℤ)
    (nb : List (List (ℤ × K))) : Except Error (List (Entry K)) :=
  if L.dim = 3 then
    match nb with
    | [nx, ny, nz] => do
      let e ← nz.mapM fun k => ny.mapM fun j => nx.mapM fun i => do
        let col ← L.getPackedGlobalIndex debug dof ⟨k.1, j.1, i.1, 0⟩
        let val ← delta XYZ [i.2, j.2, k.2] widths kernel
        return (⟨row, col, val⟩ : Entry K)
      return e.flatten.flatten
    | _ => .error .ub
  else if L.dim = 2 then
    match nb with
    | [nx, ny] => do
      let e ← ny.mapM fun j => nx.mapM fun i => do
        let col ← L.getPackedGlobalIndex debug dof ⟨0, j.1, i.1, 0⟩
        let val ← delta XYZ [i.2, j.2] widths kernel
        return (⟨row, col, val⟩ : Entry K)
      return e.flatten
    | _ => .error .ub
  else .error .argWrong

/-- One body on one process, lines 66-162. `meshIdx` is the member of the body on this process; `meshIdx[0]` is read even if
the process has no point of the body. (`src/operators/createdelta.cpp`) -/
def deltaBody (debug : Bool) (L : Layout) (axes : ℕ → Axis K) (per : List Bool) (P : BodyPack K) (kernel : DeltaKernel K)
    (window : ℕ) (r bIdx : ℕ) (body : SingleBody K) (meshIdx : List (List ℤ)) : Except Error (List (Entry K)) := do
  -- 71-77
  let widths ← (List.range L.dim).mapM fun d =>
    match meshIdx[0]? with
    | some I =>
      match I[d]? with
      | some m => meshWidth L axes 0 d m
      | none => .error .ub
    | none => .error .ub
  -- 80-162
  let rows ← (List.range (body.nLclPts r)).mapM fun iLcl =>
    let iGlb := body.bgPt r + iLcl
    match meshIdx[iLcl]?, body.coords[iGlb]? with
    | some IJK, some XYZ =>
      (List.range body.dim).mapM fun dof : ℕ => do
        let row ← P.getPackedGlobalIndex bIdx iGlb dof
        let nb ← (List.range L.dim).mapM fun d =>
          match IJK[d]?, per[d]? with
          | some I, some p => eulerianNeighbors L axes dof d I p window
          | _, _ => .error .ub
        deltaRow debug L kernel XYZ widths dof row nb
    | _, _ => .error .ub
  return rows.flatten.flatten

/-- `createDelta`, `src/operators/createdelta.cpp` 34-169, all processes together. `B r` are the boundaries on rank `r` and
`meshIdx r b` the background indices of body `b` on rank `r`. -/
def createDelta (debug : Bool) (L : Layout) (axes : ℕ → Axis K) (B : ℕ → Boundary K) (P : BodyPack K)
    (meshIdx : ℕ → ℕ → List (List ℤ)) (kernel : DeltaKernel K) (window : ℕ) : Except Error (Mat K) := do
  let entries ← (List.range L.mpiSize).mapM fun r => do
    let per ← (List.range L.dim).mapM fun d => deltaPeriodic (B r) d
    let e ← (List.range P.bodies.length).mapM fun bIdx =>
      match P.bodies[bIdx]? with
      | some body => deltaBody debug L axes per P kernel window r bIdx body (meshIdx r bIdx)
      | none => .error .ub
    return e.flatten
  assemble (P.nPts * P.dim) L.UN entries.flatten []

end PetIBM
